import Verif.Lemmas.FwTasks

/-! # The invariant of letmeinfwd's tasks -/

namespace Letmein.Props
open Letmein Prog Spec

/-! ## Histories -/

theorem Tagged.ops_append (h g : Tagged) : (h ++ g).ops = h.ops ++ g.ops := by simp [Tagged.ops]

theorem answers_append (conf : Config) (f : FwdState) (h g : Tagged) :
    Tagged.answers conf f (h ++ g) = Tagged.answers conf f h ++ Tagged.answers conf (fwdRun conf f h.ops).2 g := by
  induction h generalizing f with
  | nil => rfl
  | cons e h ih =>
    obtain ⟨tag, op⟩ := e
    simp only [List.cons_append, Tagged.answers, ih]
    rfl

theorem fairBy_append {conf : Config} {P : Kernel → Kernel → Prop} {f : FwdState} {a b : List FwdOp} :
    FairBy conf P f (a ++ b) ↔ FairBy conf P f a ∧ FairBy conf P (fwdRun conf f a).2 b := by
  induction a generalizing f with
  | nil => simp [FairBy, fwdRun]
  | cons op a ih => simp only [List.cons_append, FairBy, ih, fwdRun, and_assoc]

theorem fairBy_own {conf : Config} {n : NftNames} {f : FwdState} {ops : List FwdOp} :
    FairBy conf (OwnUnchanged n) f ops ↔ Fair conf n f ops := by
  induction ops generalizing f with
  | nil => exact Iff.rfl
  | cons op ops ih =>
    simp only [FairBy, Fair, ih]
    cases op <;> exact Iff.rfl

/-- A history that leads to `a`, with times up to `T`. -/
structure Base (conf : Config) (P : Kernel → Kernel → Prop) (f : FwdState) (h : Tagged) (a : FwdState) (T : Nat) : Prop where
  tags : ∀ e ∈ h, e.1.isSome ↔ ∃ rx now ok, e.2 = .request rx now ok
  fair : FairBy conf P f h.ops
  chronological : Chronological h.ops
  clock : ∀ op ∈ h.ops, ∀ t, FwdOp.time op = some t → t ≤ T
  run : (fwdRun conf f h.ops).2 = a

theorem Base.later {conf : Config} {P : Kernel → Kernel → Prop} {f : FwdState} {h : Tagged} {a : FwdState} {T T' : Nat}
    (hb : Base conf P f h a T) (hT : T ≤ T') : Base conf P f h a T' :=
  { hb with clock := fun op ho t ht => Nat.le_trans (hb.clock op ho t ht) hT }

theorem Base.snoc {conf : Config} {P : Kernel → Kernel → Prop} {f : FwdState} {h : Tagged} {a : FwdState} {T : Nat}
    (hb : Base conf P f h a T) (tag : Option Nat) (op : FwdOp) {b : FwdState} {r : Option FwMessage}
    (htag : tag.isSome ↔ ∃ rx now ok, op = .request rx now ok)
    (hf : OpFairBy P a op) (ht : ∀ t, FwdOp.time op = some t → t = T) (hs : fwdStep conf a op = (r, b)) :
    Base conf P f (h ++ [(tag, op)]) b T where
  tags e he := by
    rcases List.mem_append.1 he with he | he
    · exact hb.tags e he
    · simp only [List.mem_singleton] at he; subst he; exact htag
  fair := by
    rw [Tagged.ops_append, fairBy_append, hb.run]
    exact ⟨hb.fair, hf, trivial⟩
  chronological := by
    unfold Chronological
    rw [Tagged.ops_append, List.filterMap_append, List.pairwise_append]
    refine ⟨hb.chronological, ?_, ?_⟩
    · simp only [Tagged.ops, List.map_cons, List.map_nil, List.filterMap_cons, List.filterMap_nil]
      split <;> simp
    · intro x hx y hy
      obtain ⟨o, ho, hx⟩ := List.mem_filterMap.1 hx
      obtain ⟨o', ho', hy'⟩ := List.mem_filterMap.1 hy
      simp only [Tagged.ops, List.map_cons, List.map_nil, List.mem_singleton] at ho'
      subst ho'
      rw [ht _ hy']
      exact hb.clock o ho x hx
  clock o ho t hot := by
    rw [Tagged.ops_append] at ho
    rcases List.mem_append.1 ho with ho | ho
    · exact hb.clock o ho t hot
    · simp only [Tagged.ops, List.map_cons, List.map_nil, List.mem_singleton] at ho
      subst ho
      exact Nat.le_of_eq (ht _ hot)
  run := by
    rw [Tagged.ops_append, fwdRun_append, hb.run]
    simp [Tagged.ops, fwdRun, hs]

theorem Base.of_snoc {conf : Config} {P : Kernel → Kernel → Prop} {f : FwdState} {h : Tagged} {a : FwdState} {T : Nat}
    (hb : Base conf P f h a T) (tag : Option Nat) (op : FwdOp) {b : FwdState} {r : Option FwMessage} (hs : fwdStep conf a op = (r, b)) (id : Nat) :
    Tagged.of conf f (h ++ [(tag, op)]) id = Tagged.of conf f h id ++ if tag = some id then [(op, r)] else [] := by
  unfold Tagged.of
  rw [answers_append, hb.run]
  simp only [List.filter_append, List.map_append, Tagged.answers, hs]
  congr 1
  by_cases ht : tag = some id <;> simp [ht]

/-- Other programs change the ruleset. -/
theorem Base.foreign {conf : Config} {P : Kernel → Kernel → Prop} {f : FwdState} {h : Tagged} {a : FwdState} {T : Nat}
    (hb : Base conf P f h a T) {k : Kernel} (hk : P a.kernel k) :
    Base conf P f (h ++ [(none, .foreign k)]) { a with kernel := k } T ∧ ∀ id, Tagged.of conf f (h ++ [(none, .foreign k)]) id = Tagged.of conf f h id := by
  refine ⟨hb.snoc none (.foreign k) (r := none) (by simp) hk (fun t ht => by simp [FwdOp.time] at ht) rfl, fun id => ?_⟩
  rw [hb.of_snoc none (.foreign k) (r := none) (b := { a with kernel := k }) rfl]
  simp

/-! ## The invariant -/

/-- What the holder of the lock began with. -/
def Begins (conf : Config) (s : TSys) (since : Nat) : Who → LProg → Prop
  | .conn id, p => ∃ rx addr port, s.conns[id]? = some ⟨rx, .inside⟩ ∧ fwdDecide conf rx = .openPort addr port ∧ p = openPortP conf s.fw since addr port
  | .maint, p => s.maint = .inside ∧ p = maintainP conf s.fw since
  | .main, p => s.main = .inside ∧ p = shutdownP conf s.fw

/-- The lock. -/
def HeldInv (conf : Config) (P : Kernel → Kernel → Prop) (s : TSys) (a : FwdState) (T : Nat) : Prop :=
  match s.holder with
  | none => a.kernel = s.kernel ∧ s.crashed = false ∧ T = s.clock
  | some ⟨who, since, p⟩ => T = since ∧ since ≤ s.clock ∧ s.crashed = p.panics ∧ s.main ≠ .ended ∧
      ∃ p0, Begins conf s since who p0 ∧ LReach P p0 a.kernel p s.kernel

/-- The invariant, with the history. -/
structure TInv (conf : Config) (P : Kernel → Kernel → Prop) (f : FwdState) (h : Tagged) (s : TSys) (a : FwdState) (T : Nat) : Prop where
  base : Base conf P f h a T
  fw : a.fw = s.fw
  conns : ∀ (id : Nat) c, s.conns[id]? = some c → TellsConn c (h.of conf f id)
  others : ∀ id, s.conns.length ≤ id → h.of conf f id = []
  waiting : ∀ (id : Nat) rx addr port, s.conns[id]? = some ⟨rx, .waiting addr port⟩ → fwdDecide conf rx = .openPort addr port
  phase : a.phase = phaseOf s
  held : HeldInv conf P s a T

theorem HeldInv.le {conf : Config} {P : Kernel → Kernel → Prop} {s : TSys} {a : FwdState} {T : Nat} (h : HeldInv conf P s a T) : T ≤ s.clock := by
  unfold HeldInv at h
  split at h
  · exact Nat.le_of_eq h.2.2
  · rw [h.1]; exact h.2.1

theorem TInv.explains {conf : Config} {P : Kernel → Kernel → Prop} {f : FwdState} {h : Tagged} {s : TSys} {a : FwdState} {T : Nat}
    (hi : TInv conf P f h s a T) : Explains conf P f h s where
  tags := hi.base.tags
  conns := hi.conns
  others := hi.others
  fair := hi.base.fair
  chronological := hi.base.chronological
  clock op ho t ht := Nat.le_trans (hi.base.clock op ho t ht) hi.held.le
  idle hn := by
    have := hi.held
    unfold HeldInv at this
    rw [hn] at this
    rw [hi.base.run]
    exact ⟨hi.fw, this.1⟩
  phase := by rw [hi.base.run]; exact hi.phase

theorem tinv_start (conf : Config) (P : Kernel → Kernel → Prop) (f : FwdState) (hf : f.phase = .running) (t : Nat) :
    TInv conf P f [] (TSys.start f t) f t where
  base := ⟨by simp, trivial, .nil, by simp [Tagged.ops], rfl⟩
  fw := rfl
  conns := by simp [TSys.start]
  others := fun id _ => rfl
  waiting := by simp [TSys.start]
  phase := by simp [hf, phaseOf, TSys.start]
  held := ⟨rfl, rfl, rfl⟩

theorem phaseOf_alive {s : TSys} (h : s.main ≠ .ended) : phaseOf s = .running ∨ phaseOf s = .stopping := by
  unfold phaseOf
  rw [if_neg h]
  split <;> simp

/-- Requests refused before the lock leave everything as it is. -/
theorem fwdStep_refused {conf : Config} {a : FwdState} (hp : a.phase = .running ∨ a.phase = .stopping) {rx : FwRecvOut} {t : Nat} {c : ConnTask}
    (hc : ConnTask.received conf rx = c) : (∃ answer, c = ⟨rx, .replied answer⟩ ∧ fwdStep conf a (.request rx t true) = (answer, a)) ∨
      (∃ addr port, c = ⟨rx, .waiting addr port⟩ ∧ fwdDecide conf rx = .openPort addr port) := by
  subst hc
  unfold ConnTask.received
  generalize hd : fwdDecide conf rx = d
  obtain ⟨phase, fw, k⟩ := a
  cases d with
  | silent => exact .inl ⟨none, rfl, by rcases hp with hp | hp <;> (simp only at hp; subst hp; simp [fwdStep, handleMessage, hd])⟩
  | nack => exact .inl ⟨_, rfl, by rcases hp with hp | hp <;> (simp only at hp; subst hp; simp [fwdStep, handleMessage, hd])⟩
  | openPort addr port => exact .inr ⟨addr, port, rfl, rfl⟩

theorem fwdStep_open {conf : Config} {a : FwdState} (hp : a.phase = .running ∨ a.phase = .stopping) {rx : FwRecvOut} {t : Nat} {addr : IpAddr}
    {port : LeasePort} (hd : fwdDecide conf rx = .openPort addr port) {ok : Bool} {r : R Unit} {fw' : NftFirewall} {k' : Kernel}
    (ho : a.fw.openPort conf a.kernel t addr port ok = (r, fw', k')) :
    (r ≠ .panic → fwdStep conf a (.request rx t ok) = (some (answerOf r), { a with fw := fw', kernel := k' })) ∧
    (r = .panic → fwdStep conf a (.request rx t ok) = (none, { phase := .crashed, fw := fw', kernel := k' })) := by
  obtain ⟨phase, fw, k⟩ := a
  simp only at ho hp
  rcases hp with hp | hp <;> subst hp <;> cases r <;> simp [fwdStep, handleMessage, hd, ho, answerOf]

theorem set_get? {α : Type} (l : List α) (i j : Nat) (x : α) (y : α) (h : (l.set i x)[j]? = some y) :
    (i = j ∧ y = x) ∨ (i ≠ j ∧ l[j]? = some y) := by
  rw [List.getElem?_set] at h
  split at h
  · split at h
    · cases h; exact .inl ⟨by assumption, rfl⟩
    · cases h
  · exact .inr ⟨by assumption, h⟩

/-- What the operation of the holder does when it is done, in the history. -/
theorem linearize {conf : Config} {P : Kernel → Kernel → Prop} (hP : Preorder' P) {f : FwdState} {h : Tagged} {s : TSys} {a : FwdState} {T : Nat}
    (hi : TInv conf P f h s a T) {who : Who} {since : Nat} {r : R Unit} {fw' : NftFirewall} (hh : s.holder = some ⟨who, since, .ret r fw'⟩) :
    ∃ g : Tagged, (match who with
        | .conn id => ∃ c ok, s.conns[id]? = some c ∧ c.pc = .inside ∧ (∀ j, Tagged.of conf f (h ++ g) j = Tagged.of conf f h j ++
            if some id = some j then [(.request c.rx since ok, if r = .panic then none else some (answerOf r))] else [])
        | _ => ∀ j, Tagged.of conf f (h ++ g) j = Tagged.of conf f h j) ∧
      Base conf P f (h ++ g) ⟨if r = .panic then .crashed else match who with
        | .conn _ => a.phase
        | .maint => if r = .ok () then a.phase else .stopping
        | .main => .stopped, fw', s.kernel⟩ T := by
  have hheld := hi.held
  unfold HeldInv at hheld
  rw [hh] at hheld
  obtain ⟨hT, _, _, hmain, p0, hb, hr⟩ := hheld
  have hph := phaseOf_alive hmain
  rw [← hi.phase] at hph
  cases who with
  | conn id =>
    obtain ⟨rx, addr, port, hc, hd, rfl⟩ := hb
    obtain ⟨k1, k2, ok, h1, h2, h3⟩ := openPortP_atomic hP hr
    obtain ⟨b1, o1⟩ := hi.base.foreign h1
    rw [← hi.fw] at h2
    have hst := fwdStep_open (a := { a with kernel := k1 }) hph hd h2
    by_cases hpan : r = .panic
    · have b2 := b1.snoc (some id) (.request rx since ok) (by simp) trivial (fun t ht => by simp [FwdOp.time] at ht; omega) (hst.2 hpan)
      have o2 := b1.of_snoc (some id) (.request rx since ok) (hst.2 hpan)
      obtain ⟨b3, o3⟩ := b2.foreign (k := s.kernel) h3
      refine ⟨[(none, .foreign k1), (some id, .request rx since ok), (none, .foreign s.kernel)], ⟨⟨rx, .inside⟩, ok, hc, rfl, fun j => ?_⟩, ?_⟩
      · have := o3 j
        rw [o2, o1] at this
        simpa [hpan] using this
      · simpa [hpan] using b3
    · have b2 := b1.snoc (some id) (.request rx since ok) (by simp) trivial (fun t ht => by simp [FwdOp.time] at ht; omega) (hst.1 hpan)
      have o2 := b1.of_snoc (some id) (.request rx since ok) (hst.1 hpan)
      obtain ⟨b3, o3⟩ := b2.foreign (k := s.kernel) h3
      refine ⟨[(none, .foreign k1), (some id, .request rx since ok), (none, .foreign s.kernel)], ⟨⟨rx, .inside⟩, ok, hc, rfl, fun j => ?_⟩, ?_⟩
      · have := o3 j
        rw [o2, o1] at this
        simpa [hpan] using this
      · simpa [hpan] using b3
  | maint =>
    obtain ⟨hm, rfl⟩ := hb
    obtain ⟨k1, k2, env, h1, h2, h3, hf⟩ := maintainP_atomic hP hr
    obtain ⟨b1, o1⟩ := hi.base.foreign h1
    rw [← hi.fw] at h2
    have hrun : a.phase = .running := by rw [hi.phase, phaseOf, if_neg hmain, if_neg (by simp [hm])]
    have hst : fwdStep conf { a with kernel := k1 } (.maintain since env) =
        (none, ⟨if r = .panic then .crashed else if r = .ok () then a.phase else .stopping, fw', k2⟩) := by
      obtain ⟨phase, fw, k⟩ := a
      simp only at hrun h2
      subst hrun
      cases r <;> simp [fwdStep, h2]
    have b2 := b1.snoc none (.maintain since env) (by simp) hf (fun t ht => by simp [FwdOp.time] at ht; omega) hst
    have o2 := b1.of_snoc none (.maintain since env) hst
    obtain ⟨b3, o3⟩ := b2.foreign (k := s.kernel) h3
    refine ⟨[(none, .foreign k1), (none, .maintain since env), (none, .foreign s.kernel)], fun j => ?_, ?_⟩
    · have := o3 j
      rw [o2, o1] at this
      simpa using this
    · simpa using b3
  | main =>
    obtain ⟨hm, rfl⟩ := hb
    obtain ⟨k1, k2, ok, h1, h2, h3⟩ := shutdownP_atomic hP hr
    obtain ⟨b1, o1⟩ := hi.base.foreign h1
    rw [← hi.fw] at h2
    have hst : fwdStep conf { a with kernel := k1 } (.terminate ok) =
        (none, ⟨if r = .panic then .crashed else .stopped, fw', k2⟩) := by
      obtain ⟨phase, fw, k⟩ := a
      simp only at hph h2
      rcases hph with hph | hph <;> subst hph <;> cases r <;> simp [fwdStep, h2]
    have b2 := b1.snoc none (.terminate ok) (by simp) trivial (fun t ht => by simp [FwdOp.time] at ht) hst
    have o2 := b1.of_snoc none (.terminate ok) hst
    obtain ⟨b3, o3⟩ := b2.foreign (k := s.kernel) h3
    refine ⟨[(none, .foreign k1), (none, .terminate ok), (none, .foreign s.kernel)], fun j => ?_, ?_⟩
    · have := o3 j
      rw [o2, o1] at this
      simpa using this
    · simpa using b3

/-- The lock is taken: nothing else happens. -/
theorem TInv.lock {conf : Config} {P : Kernel → Kernel → Prop} {f : FwdState} {h : Tagged} {s s' : TSys} {a : FwdState} {T : Nat}
    (hi : TInv conf P f h s a T) {who : Who} {p : LProg} (hn : s.holder = none) (hm : s'.main ≠ .ended) (hfw : s'.fw = s.fw)
    (hk : s'.kernel = s.kernel) (hcl : s'.clock = s.clock) (hh : s'.holder = some ⟨who, s.clock, p⟩) (hcr : s'.crashed = p.panics)
    (hph : phaseOf s' = phaseOf s) (hb : Begins conf s' s.clock who p)
    (hc : ∀ (id : Nat) c, s'.conns[id]? = some c → TellsConn c (h.of conf f id)) (hlen : s'.conns.length = s.conns.length)
    (hw : ∀ (id : Nat) rx addr port, s'.conns[id]? = some ⟨rx, .waiting addr port⟩ → fwdDecide conf rx = .openPort addr port) :
    TInv conf P f h s' a T where
  base := hi.base
  fw := hi.fw.trans hfw.symm
  conns := hc
  others id hl := hi.others id (by omega)
  waiting := hw
  phase := hi.phase.trans hph.symm
  held := by
    have := hi.held
    unfold HeldInv at this ⊢
    rw [hn] at this
    rw [hh]
    refine ⟨this.2.2, by omega, hcr, hm, p, hb, ?_⟩
    rw [this.1, hk]
    exact .refl _ _

/-- A step keeps the invariant; the history grows. -/
theorem tinv_step {conf : Config} {P : Kernel → Kernel → Prop} (hP : Preorder' P) {f : FwdState} {h : Tagged} {s s' : TSys} {a : FwdState} {T : Nat}
    (hi : TInv conf P f h s a T) (hs : TStep conf P s s') : ∃ g a' T', TInv conf P f (h ++ g) s' a' T' := by
  have hheld := hi.held
  cases hs with
  | tick t ht =>
    unfold HeldInv at hheld
    generalize hh : s.holder = o at hheld
    cases o with
    | none =>
      refine ⟨[], a, t, ?_⟩
      rw [List.append_nil]
      exact { hi with
        base := hi.base.later (by simp only at hheld; omega)
        held := by unfold HeldInv; simp only [hh]; exact ⟨hheld.1, hheld.2.1, trivial⟩ }
    | some o =>
      refine ⟨[], a, T, ?_⟩
      rw [List.append_nil]
      obtain ⟨who, since, p⟩ := o
      obtain ⟨h1, h2, h3, h4, p0, h5, h6⟩ := hheld
      exact { hi with
        held := by
          unfold HeldInv
          simp only [hh]
          refine ⟨h1, by omega, h3, h4, p0, ?_, h6⟩
          cases who <;> exact h5 }
  | foreign k hk =>
    unfold HeldInv at hheld
    generalize hh : s.holder = o at hheld
    cases o with
    | none =>
      obtain ⟨b1, o1⟩ := hi.base.foreign (k := k) (by rw [hheld.1]; exact hk)
      exact ⟨[(none, .foreign k)], _, T, b1, hi.fw, fun id c hc => by rw [o1]; exact hi.conns id c hc, fun id hl => by rw [o1]; exact hi.others id hl,
        hi.waiting, hi.phase, by unfold HeldInv; simp only [hh]; exact ⟨trivial, hheld.2⟩⟩
    | some o =>
      refine ⟨[], a, T, ?_⟩
      rw [List.append_nil]
      obtain ⟨who, since, p⟩ := o
      obtain ⟨h1, h2, h3, h4, p0, h5, h6⟩ := hheld
      exact { hi with
        held := by
          unfold HeldInv
          simp only [hh]
          refine ⟨h1, h2, h3, h4, p0, ?_, h6.tail (.foreign hk)⟩
          cases who <;> exact h5 }
  | reorder l ha hn hl =>
    unfold HeldInv at hheld
    simp only [hn] at hheld
    have b1 := hi.base.snoc none (.reorder l) (by simp) (by rw [← hi.fw] at hl; exact hl) (fun t ht => by simp [FwdOp.time] at ht) rfl
    have o1 := hi.base.of_snoc none (.reorder l) (r := none) rfl
    simp only [reduceCtorEq, if_false, List.append_nil] at o1
    exact ⟨[(none, .reorder l)], _, T, b1, by simp [hi.fw], fun id c hc => by rw [o1]; exact hi.conns id c hc,
      fun id hl => by rw [o1]; exact hi.others id hl, hi.waiting, hi.phase, by unfold HeldInv; simp only [hn]; exact hheld⟩
  | message rx ha =>
    have hph := phaseOf_alive ha.2
    rw [← hi.phase] at hph
    have hnew : ∀ c, ∀ id : Nat, ∀ d, (s.conns ++ [c])[id]? = some d → s.conns[id]? = some d ∨ (id = s.conns.length ∧ d = c) := by
      intro c id d hd
      rw [List.getElem?_append] at hd
      split at hd
      · exact .inl hd
      · right
        rw [List.getElem?_singleton] at hd
        split at hd
        · cases hd; exact ⟨by omega, rfl⟩
        · cases hd
    have hheld' : ∀ c, HeldInv conf P { s with conns := s.conns ++ [c] } a T := by
      intro c
      unfold HeldInv at hheld ⊢
      simp only
      generalize s.holder = o at hheld
      cases o with
      | none => exact hheld
      | some o =>
        obtain ⟨who, since, p⟩ := o
        obtain ⟨h1, h2, h3, h4, p0, h5, h6⟩ := hheld
        refine ⟨h1, h2, h3, h4, p0, ?_, h6⟩
        cases who with
        | conn id =>
          obtain ⟨rx', addr, port, h7, h8⟩ := h5
          refine ⟨rx', addr, port, ?_, h8⟩
          simp only
          rw [List.getElem?_append_left (by have := List.getElem?_eq_some_iff.1 h7; exact this.1)]
          exact h7
        | maint => exact h5
        | main => exact h5
    rcases fwdStep_refused (a := a) hph (t := T) (rx := rx) rfl with ⟨answer, hc, hst⟩ | ⟨addr, port, hc, hd⟩
    · rw [hc]
      have b1 := hi.base.snoc (some s.conns.length) (.request rx T true) (by simp) trivial (fun t ht => by simp [FwdOp.time] at ht; omega) hst
      have o1 := hi.base.of_snoc (some s.conns.length) (.request rx T true) hst
      refine ⟨[(some s.conns.length, .request rx T true)], a, T, b1, hi.fw, fun id c hc => ?_, fun id hl => ?_, fun id rx' addr port hc => ?_, hi.phase, hheld' _⟩
      · rw [o1]
        rcases hnew _ _ _ hc with hc | ⟨rfl, rfl⟩
        · have hlt := (List.getElem?_eq_some_iff.1 hc).1
          rw [if_neg (by simp; omega), List.append_nil]
          exact hi.conns id c hc
        · rw [if_pos rfl, hi.others _ (Nat.le_refl _)]
          exact ⟨T, true, rfl⟩
      · simp only [List.length_append, List.length_cons, List.length_nil] at hl
        rw [o1, if_neg (by simp; omega), List.append_nil]
        exact hi.others id (by omega)
      · rcases hnew _ _ _ hc with hc | ⟨_, hc⟩
        · exact hi.waiting id rx' addr port hc
        · cases hc
    · rw [hc]
      refine ⟨[], a, T, ?_⟩
      rw [List.append_nil]
      refine { hi with conns := fun id c hc => ?_, others := fun id hl => ?_, waiting := fun id rx' addr port hc => ?_, held := hheld' _ }
      · rcases hnew _ _ _ hc with hc | ⟨rfl, rfl⟩
        · exact hi.conns id c hc
        · exact hi.others _ (Nat.le_refl _)
      · simp only [List.length_append, List.length_cons, List.length_nil] at hl
        exact hi.others id (by omega)
      · rcases hnew _ _ _ hc with hc | ⟨_, hc⟩
        · exact hi.waiting id rx' addr port hc
        · cases hc; exact hd
  | maintTick ha hm =>
    refine ⟨[], a, T, ?_⟩
    rw [List.append_nil]
    refine { hi with phase := by rw [hi.phase]; simp [phaseOf, hm], held := ?_ }
    unfold HeldInv at hheld ⊢
    simp only
    generalize s.holder = o at hheld
    cases o with
    | none => exact hheld
    | some o =>
      obtain ⟨who, since, p⟩ := o
      obtain ⟨h1, h2, h3, h4, p0, h5, h6⟩ := hheld
      refine ⟨h1, h2, h3, h4, p0, ?_, h6⟩
      cases who with
      | maint => exact absurd (hm.symm.trans h5.1) (by simp)
      | conn id => exact h5
      | main => exact h5
  | leave ha hm =>
    refine ⟨[], a, T, ?_⟩
    rw [List.append_nil]
    refine { hi with phase := by rw [hi.phase]; simp [phaseOf, hm], held := ?_ }
    unfold HeldInv at hheld ⊢
    simp only
    generalize s.holder = o at hheld
    cases o with
    | none => exact hheld
    | some o =>
      obtain ⟨who, since, p⟩ := o
      obtain ⟨h1, h2, h3, h4, p0, h5, h6⟩ := hheld
      refine ⟨h1, h2, h3, by simp, p0, ?_, h6⟩
      cases who with
      | main => exact absurd (hm.symm.trans h5.1) (by simp)
      | conn id => exact h5
      | maint => exact h5
  | @lockConn id rx addr port ha hn hc =>
    have hlt := (List.getElem?_eq_some_iff.1 hc).1
    refine ⟨[], a, T, ?_⟩
    rw [List.append_nil]
    refine hi.lock (s' := _) hn ha.2 rfl rfl rfl rfl rfl rfl ⟨rx, addr, port, ?_, hi.waiting id rx addr port hc, rfl⟩ (fun j c hj => ?_) (by simp) (fun j rx' addr' port' hj => ?_)
    · simp [hlt]
    · rcases set_get? _ _ _ _ _ hj with ⟨rfl, rfl⟩ | ⟨_, hj⟩
      · have := hi.conns _ _ hc; exact this
      · exact hi.conns _ _ hj
    · rcases set_get? _ _ _ _ _ hj with ⟨_, hj⟩ | ⟨_, hj⟩
      · cases hj
      · exact hi.waiting _ _ _ _ hj
  | lockMaint ha hn hm =>
    refine ⟨[], a, T, ?_⟩
    rw [List.append_nil]
    exact hi.lock (s' := _) hn ha.2 rfl rfl rfl rfl rfl (by simp [phaseOf, hm]) ⟨rfl, rfl⟩ hi.conns rfl hi.waiting
  | lockMain ha hn hm =>
    refine ⟨[], a, T, ?_⟩
    rw [List.append_nil]
    exact hi.lock (s' := _) hn (by simp) rfl rfl rfl rfl rfl (by simp [phaseOf, hm]) ⟨rfl, rfl⟩ hi.conns rfl hi.waiting
  | nftList ok ha hh =>
    refine ⟨[], a, T, ?_⟩
    rw [List.append_nil]
    unfold HeldInv at hheld
    simp only [hh] at hheld
    obtain ⟨h1, h2, h3, h4, p0, h5, h6⟩ := hheld
    refine { hi with held := ?_ }
    refine ⟨h1, h2, rfl, h4, p0, ?_, h6.tail (.list ok)⟩
    rename_i who _ _
    cases who <;> exact h5
  | nftApply ok ha hh =>
    refine ⟨[], a, T, ?_⟩
    rw [List.append_nil]
    unfold HeldInv at hheld
    simp only [hh] at hheld
    obtain ⟨h1, h2, h3, h4, p0, h5, h6⟩ := hheld
    refine { hi with held := ?_ }
    refine ⟨h1, h2, rfl, h4, p0, ?_, h6.tail (.apply ok)⟩
    rename_i who _ _ _
    cases who <;> exact h5
  | @doneConn id since r fw rx ha hh hc =>
    have hlt := (List.getElem?_eq_some_iff.1 hc).1
    obtain ⟨g, ⟨c, ok, hc', hin, ho⟩, hb⟩ := linearize hP hi hh
    obtain rfl : ⟨rx, .inside⟩ = c := by rw [hc] at hc'; exact Option.some.inj hc'
    unfold HeldInv at hheld
    simp only [hh] at hheld
    have hr : r ≠ .panic := by
      intro hr; rw [hr, ha.1] at hheld; exact absurd hheld.2.2.1 (by simp [LProg.panics])
    simp only [if_neg hr] at hb ho
    have hle : T ≤ s.clock := by omega
    refine ⟨g, _, s.clock, hb.later hle, rfl, fun j d hj => ?_, fun j hl => ?_, fun j rx' addr' port' hj => ?_, hi.phase, ⟨rfl, ha.1, rfl⟩⟩
    · rw [ho]
      rcases set_get? _ _ _ _ _ hj with ⟨rfl, rfl⟩ | ⟨hne, hj⟩
      · have := hi.conns _ _ hc
        simp only [TellsConn] at this
        rw [this, if_pos rfl]
        exact ⟨since, ok, rfl⟩
      · rw [if_neg (by simpa using hne), List.append_nil]
        exact hi.conns _ _ hj
    · simp only [List.length_set] at hl
      rw [ho, if_neg (by simp; omega), List.append_nil]
      exact hi.others j hl
    · rcases set_get? _ _ _ _ _ hj with ⟨_, hj⟩ | ⟨_, hj⟩
      · cases hj
      · exact hi.waiting _ _ _ _ hj
  | @doneMaint since r fw ha hh =>
    obtain ⟨g, ho, hb⟩ := linearize hP hi hh
    unfold HeldInv at hheld
    simp only [hh] at hheld
    have hr : r ≠ .panic := by
      intro hr; rw [hr, ha.1] at hheld; exact absurd hheld.2.2.1 (by simp [LProg.panics])
    obtain ⟨h1, h2, h3, h4, p0, ⟨hm, _⟩, _⟩ := hheld
    simp only [if_neg hr] at hb ho
    refine ⟨g, _, s.clock, hb.later (by omega), rfl, fun j d hj => by rw [ho]; exact hi.conns _ _ hj, fun j hl => by rw [ho]; exact hi.others j hl, hi.waiting, ?_, ⟨rfl, ha.1, rfl⟩⟩
    simp only [hi.phase, phaseOf, if_neg h4, hm]
    by_cases hok : r = .ok () <;> simp [hok]
  | @doneMain since r fw ha hh =>
    obtain ⟨g, ho, hb⟩ := linearize hP hi hh
    unfold HeldInv at hheld
    simp only [hh] at hheld
    have hr : r ≠ .panic := by
      intro hr; rw [hr, ha.1] at hheld; exact absurd hheld.2.2.1 (by simp [LProg.panics])
    simp only [if_neg hr] at hb ho
    exact ⟨g, _, s.clock, hb.later (by omega), rfl, fun j d hj => by rw [ho]; exact hi.conns _ _ hj, fun j hl => by rw [ho]; exact hi.others j hl, hi.waiting,
      by simp [phaseOf], ⟨rfl, ha.1, rfl⟩⟩

theorem tinv_steps {conf : Config} {P : Kernel → Kernel → Prop} (hP : Preorder' P) {f : FwdState} {h : Tagged} {s s' : TSys} {a : FwdState} {T : Nat}
    (hi : TInv conf P f h s a T) (hs : TSteps conf P s s') : ∃ g a' T', TInv conf P f (h ++ g) s' a' T' := by
  induction hs with
  | refl => exact ⟨[], a, T, by rw [List.append_nil]; exact hi⟩
  | step _ h2 ih =>
    obtain ⟨g, a1, T1, h3⟩ := ih
    obtain ⟨g', a2, T2, h4⟩ := tinv_step hP h3 h2
    exact ⟨g ++ g', a2, T2, by rw [← List.append_assoc]; exact h4⟩

end Letmein.Props
