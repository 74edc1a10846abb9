import Verif.Lemmas.FwTasksInv
import Verif.Props.FirewallMore

/-!
# C83: concurrent tasks of letmeinfwd act one after the other

The model of the firewall daemon (`FwServer`) takes each operation as one step. Here this is proved of the tasks: connections, maintenance and
shutdown wait for the lock, run `nft` while others go on, and answer; whatever the scheduling, there is a history of undivided operations that explains all
answers, the firewall object and the ruleset.
-/

namespace Letmein.Props
open Letmein Prog Spec

/-- **C83** (serial). After any steps of the tasks and of other programs, a history of undivided operations explains the answers on all connections and, when
no operation is under way, the firewall object and the ruleset. Whatever happens later only adds to the history: the order of the history is
compatible with the order in which answers are given and later messages arrive. -/
theorem C83_serial (conf : Config) (P : Kernel → Kernel → Prop) (hP : Preorder' P) (f : FwdState) (hf : f.phase = .running) (t : Nat) (s s' : TSys)
    (h1 : TSteps conf P (TSys.start f t) s) (h2 : TSteps conf P s s') :
    ∃ h g, Explains conf P f h s ∧ Explains conf P f (h ++ g) s' := by
  obtain ⟨h, a, T, hi⟩ := tinv_steps hP (tinv_start conf P f hf t) h1
  obtain ⟨g, a', T', hi'⟩ := tinv_steps hP hi h2
  exact ⟨[] ++ h, g, hi.explains, hi'.explains⟩

/-! ## The ruleset at any moment -/

theorem answers_map (conf : Config) (f : FwdState) (h : Tagged) : (h.answers conf f).map (·.2) = (fwdRun conf f h.ops).1 := by
  induction h generalizing f with
  | nil => rfl
  | cons e h ih => obtain ⟨tag, op⟩ := e; simp only [Tagged.answers, List.map_cons, ih]; rfl

theorem answers_tags (conf : Config) (f : FwdState) (h : Tagged) : (h.answers conf f).map (fun e => (e.1, e.2.1)) = h := by
  induction h generalizing f with
  | nil => rfl
  | cons e h ih => obtain ⟨tag, op⟩ := e; simp only [Tagged.answers, List.map_cons, ih]

theorem mem_of (conf : Config) (f : FwdState) (h : Tagged) (htags : ∀ e ∈ h, e.1.isSome ↔ ∃ rx now ok, e.2 = .request rx now ok)
    {rx : FwRecvOut} {now : Nat} {ok : Bool} {ans : Option FwMessage} (hm : (FwdOp.request rx now ok, ans) ∈ (fwdRun conf f h.ops).1) :
    ∃ id, (FwdOp.request rx now ok, ans) ∈ h.of conf f id := by
  rw [← answers_map] at hm
  obtain ⟨⟨tag, x⟩, he, hx⟩ := List.mem_map.1 hm
  simp only at hx
  subst hx
  have hmem : (tag, FwdOp.request rx now ok) ∈ h := by
    rw [← answers_tags conf f h]
    exact List.mem_map.2 ⟨_, he, rfl⟩
  have htag := (htags _ hmem).2 ⟨rx, now, ok, rfl⟩
  obtain ⟨id, rfl⟩ := Option.isSome_iff_exists.1 htag
  exact ⟨id, List.mem_map.2 ⟨_, List.mem_filter.2 ⟨he, by simp⟩, rfl⟩⟩

/-- The connection has been answered so, or its operation is under way. -/
def Involved (s : TSys) (rx : FwRecvOut) (ans : Option FwMessage) : Prop :=
  ∃ (id : Nat) (c : ConnTask), s.conns[id]? = some c ∧ c.rx = rx ∧ (c.pc = .replied ans ∨ c.pc = .inside)

theorem TInv.involved {conf : Config} {P : Kernel → Kernel → Prop} {f : FwdState} {h : Tagged} {s : TSys} {a : FwdState} {T : Nat}
    (hi : TInv conf P f h s a T) {id : Nat} {rx : FwRecvOut} {now : Nat} {ok : Bool} {ans : Option FwMessage}
    (hm : (FwdOp.request rx now ok, ans) ∈ h.of conf f id) : Involved s rx ans := by
  by_cases hl : s.conns.length ≤ id
  · rw [hi.others id hl] at hm; cases hm
  · have hc : s.conns[id]? = some (s.conns[id]'(by omega)) := List.getElem?_eq_getElem (by omega)
    generalize s.conns[id]'(by omega) = c at hc
    have := hi.conns id c hc
    unfold TellsConn at this
    split at this
    · rename_i answer hpc
      obtain ⟨now', ok', h1⟩ := this
      rw [h1] at hm
      simp only [List.mem_singleton, Prod.mk.injEq, FwdOp.request.injEq] at hm
      exact ⟨id, c, hc, hm.1.1.symm, .inl (by rw [hpc, hm.2])⟩
    · rw [this] at hm; cases hm

/-- **C83** (the ruleset at any moment). At every moment, also while operations are under way, the ruleset is the one after a history of undivided operations whose
requests are messages of connections that have been answered so or have the lock. -/
theorem C83_ruleset (conf : Config) (P : Kernel → Kernel → Prop) (hP : Preorder' P) (f : FwdState) (hf : f.phase = .running) (t : Nat) (s : TSys)
    (h1 : TSteps conf P (TSys.start f t) s) :
    ∃ ops, FairBy conf P f ops ∧ Chronological ops ∧ (∀ op ∈ ops, ∀ t', FwdOp.time op = some t' → t' ≤ s.clock) ∧
      (fwdRun conf f ops).2.kernel = s.kernel ∧
      ∀ rx now ok ans, (FwdOp.request rx now ok, ans) ∈ (fwdRun conf f ops).1 → Involved s rx ans := by
  obtain ⟨h, a, T, hi⟩ := tinv_steps hP (tinv_start conf P f hf t) h1
  simp only [List.nil_append] at hi
  have hle := hi.held.le
  have fin : ∀ (g : Tagged) b, Base conf P f g b T → b.kernel = s.kernel →
      (∀ id rx now ok ans, (FwdOp.request rx now ok, ans) ∈ g.of conf f id → Involved s rx ans) →
      ∃ ops, FairBy conf P f ops ∧ Chronological ops ∧ (∀ op ∈ ops, ∀ t', FwdOp.time op = some t' → t' ≤ s.clock) ∧
      (fwdRun conf f ops).2.kernel = s.kernel ∧
      ∀ rx now ok ans, (FwdOp.request rx now ok, ans) ∈ (fwdRun conf f ops).1 → Involved s rx ans := by
    intro g b hb hk hin
    refine ⟨g.ops, hb.fair, hb.chronological, fun op ho t' ht' => Nat.le_trans (hb.clock op ho t' ht') hle, by rw [hb.run]; exact hk, ?_⟩
    intro rx now ok ans hm
    obtain ⟨id, hm⟩ := mem_of conf f g hb.tags hm
    exact hin id rx now ok ans hm
  have hheld := hi.held
  unfold HeldInv at hheld
  generalize hh : s.holder = o at hheld
  cases o with
  | none => exact fin h a hi.base hheld.1 fun id rx now ok ans hm => hi.involved hm
  | some o =>
    obtain ⟨who, since, p⟩ := o
    obtain ⟨_, _, _, _, p0, hb0, hr⟩ := hheld
    have hone : OneShot p0 := by
      cases who with
      | conn id => obtain ⟨_, _, _, _, _, rfl⟩ := hb0; exact openPortP_oneShot _ _ _ _ _
      | maint => obtain ⟨_, rfl⟩ := hb0; exact maintainP_oneShot _ _ _
      | main => obtain ⟨_, rfl⟩ := hb0; exact shutdownP_oneShot _ _
    rcases hone.pending hP hr with ⟨r, fw, rfl⟩ | hk
    · obtain ⟨g, ho, hb⟩ := linearize hP hi hh
      refine fin (h ++ g) _ hb rfl fun id rx now ok ans hm => ?_
      cases who with
      | conn i =>
        obtain ⟨c, ok', hc, hin, ho⟩ := ho
        rw [ho] at hm
        rcases List.mem_append.1 hm with hm | hm
        · exact hi.involved hm
        · split at hm
          · simp only [List.mem_singleton, Prod.mk.injEq, FwdOp.request.injEq] at hm
            exact ⟨i, c, hc, hm.1.1.symm, .inr hin⟩
          · cases hm
      | maint => simp only at ho; rw [ho] at hm; exact hi.involved hm
      | main => simp only at ho; rw [ho] at hm; exact hi.involved hm
    · obtain ⟨hb, ho⟩ := hi.base.foreign hk
      refine fin _ _ hb rfl fun id rx now ok ans hm => ?_
      rw [ho] at hm
      exact hi.involved hm

theorem own_preorder (n : NftNames) : Preorder' (OwnUnchanged n) where
  refl k := ⟨rfl, Nat.le_refl _⟩
  trans _ _ _ h1 h2 := ⟨h2.own.trans h1.own, Nat.le_trans h1.gen h2.gen⟩

/-- **C83** (nothing unasked, at any moment). At every moment and whatever fails, a packet that the chain accepts goes to an enabled control port or is covered by
the message of a connection that has been answered with Ack or has the lock. -/
theorem C83_only_asked (conf : Config) (n : NftNames) (hn : ChainOf conf n) (k0 : Kernel) (ok0 : Bool) (f : FwdState)
    (h0 : fwdStart conf k0 ok0 = some f) (t : Nat) (s : TSys) (h1 : TSteps conf (OwnUnchanged n) (TSys.start f t) s) (pkt : Packet)
    (hacc : chainAccepts n s.kernel pkt = true) :
    toControlPort conf pkt ∨ ∃ (id : Nat) (c : ConnTask) (m : FwMessage) (addr : IpAddr) (pt : PortType) (port : UInt16),
      s.conns[id]? = some c ∧ c.rx = .msg m ∧ m.getAddr = some addr ∧ m.getPort = some (pt, port) ∧ covers addr (selection pt port) pkt ∧
      (c.pc = .inside ∨ ∃ r, c.pc = .replied (some r) ∧ r.operation = .Ack) := by
  obtain ⟨hp0, _⟩ := fwdStart_inv h0
  obtain ⟨ops, hfair, _, _, hk, hin⟩ := C83_ruleset conf _ (own_preorder n) f hp0 t s h1
  rw [← hk] at hacc
  rcases C20_never_unasked conf n hn k0 ok0 f h0 ops (fairBy_own.1 hfair) pkt hacc with h | ⟨⟨op, ans⟩, hx, addr, p, to, hg, hc⟩
  · exact .inl h
  · right
    unfold granted at hg
    split at hg
    · rename_i m now ok r he1 he2
      simp only at he1 he2
      subst he1; subst he2
      split at hg
      · rename_i hack
        split at hg
        · rename_i addr' pt port ha hpo
          simp only [Option.some.injEq, Prod.mk.injEq] at hg
          obtain ⟨rfl, rfl, _⟩ := hg
          obtain ⟨id, c, h2, h3, h4⟩ := hin _ _ _ _ hx
          exact ⟨id, c, m, addr', pt, port, h2, h3, ha, hpo, hc, h4.symm.imp (fun h => h) fun h => ⟨r, h, hack⟩⟩
        · cases hg
      · cases hg
    · cases hg

/-- **C83** (no crash). No scheduling of the tasks, no failure of `nft` and nothing other programs do to the ruleset makes a task reach a failing assertion. -/
theorem C83_no_crash (conf : Config) (k0 : Kernel) (ok0 : Bool) (f : FwdState) (h0 : fwdStart conf k0 ok0 = some f) (t : Nat) (s : TSys)
    (h1 : TSteps conf (fun _ _ => True) (TSys.start f t) s) : s.crashed = false := by
  have hP : Preorder' (fun _ _ => True) := ⟨fun _ => trivial, fun _ _ _ _ _ => trivial⟩
  obtain ⟨hp0, _⟩ := fwdStart_inv h0
  obtain ⟨h, a, T, hi⟩ := tinv_steps hP (tinv_start conf _ f hp0 t) h1
  have hheld := hi.held
  unfold HeldInv at hheld
  generalize hh : s.holder = o at hheld
  cases o with
  | none => exact hheld.2.1
  | some o =>
    obtain ⟨who, since, p⟩ := o
    simp only at hheld
    rw [hheld.2.2.1]
    cases hp : p.panics with
    | false => rfl
    | true =>
      exfalso
      unfold LProg.panics at hp
      split at hp
      · obtain ⟨g, _, hb⟩ := linearize hP hi hh
        have := C49_no_crash conf k0 ok0 f h0 (([] ++ h ++ g : Tagged).ops)
        rw [hb.run] at this
        exact this rfl
      · cases hp

/-! ## Answers are possible -/

/-- Whatever has happened, if a task has the lock, it can go on and release it. -/
theorem release {conf : Config} {P : Kernel → Kernel → Prop} {s : TSys} (hal : s.alive) {who : Who} {since : Nat} {p : LProg}
    (hh : s.holder = some ⟨who, since, p⟩)
    (hno : ∀ q k, LReach P p s.kernel q k → q.panics = false)
    (hc : ∀ id, who = .conn id → ∃ rx, s.conns[id]? = some ⟨rx, .inside⟩) (hm : who ≠ .main) :
    ∃ s', TSteps conf P s s' ∧ s'.alive ∧ s'.holder = none ∧ s'.main = s.main ∧
      (∀ id rx, who = .conn id → s.conns[id]? = some ⟨rx, .inside⟩ → ∃ ans, s'.conns[id]? = some ⟨rx, .replied ans⟩) ∧
      ∀ id c, who ≠ .conn id → s.conns[id]? = some c → s'.conns[id]? = some c := by
  induction p generalizing s with
  | ret r fw =>
    cases who with
    | conn i =>
      obtain ⟨rx, hcx⟩ := hc i rfl
      have hlt := (List.getElem?_eq_some_iff.1 hcx).1
      refine ⟨_, .step (.refl _) (.doneConn hal hh hcx), hal, rfl, rfl, fun id rx' he hcx' => ?_, fun id c hne hcx' => ?_⟩
      · cases he
        rw [hcx] at hcx'
        cases hcx'
        exact ⟨some (answerOf r), by simp [hlt]⟩
      · simp only
        rw [List.getElem?_set_ne (by intro he; exact hne (by rw [he]))]
        exact hcx'
    | maint =>
      exact ⟨_, .step (.refl _) (.doneMaint hal hh), hal, rfl, rfl, fun id rx' he => (by cases he), fun id c _ hcx => hcx⟩
    | main => exact absurd rfl hm
  | list k ih =>
    have hst : TStep conf P s _ := .nftList true hal hh
    have hnp := hno _ _ (.head (.list true) (.refl _ _))
    obtain ⟨s', h1, h2⟩ := ih (some s.kernel.rules) (s := { s with
        holder := some ⟨who, since, k (if true then some s.kernel.rules else none)⟩
        crashed := (k (if true then some s.kernel.rules else none)).panics }) ⟨hnp, hal.2⟩ rfl
      (fun q k' hr => hno q k' (.head (.list true) hr)) hc
    refine ⟨s', ?_, h2⟩
    clear h2 ih
    induction h1 with
    | refl => exact .step (.refl _) hst
    | step _ h3 ih2 => exact .step ih2 h3
  | apply cmds k ih =>
    have hst : TStep conf P s _ := .nftApply true hal hh
    have hnp := hno _ _ (.head (.apply true) (.refl _ _))
    obtain ⟨s', h1, h2⟩ := ih _ (s := { s with
        kernel := (runNft s.kernel cmds true).2
        holder := some ⟨who, since, k (runNft s.kernel cmds true).1⟩
        crashed := (k (runNft s.kernel cmds true).1).panics }) ⟨hnp, hal.2⟩ rfl
      (fun q k' hr => hno q k' (.head (.apply true) hr)) hc
    refine ⟨s', ?_, h2⟩
    clear h2 ih
    induction h1 with
    | refl => exact .step (.refl _) hst
    | step _ h3 ih2 => exact .step ih2 h3

theorem TSteps.trans' {conf : Config} {P : Kernel → Kernel → Prop} {s s' s'' : TSys} (h1 : TSteps conf P s s') (h2 : TSteps conf P s' s'') :
    TSteps conf P s s'' := by
  induction h2 with
  | refl => exact h1
  | step _ h ih => exact .step ih h

theorem TSteps.mono {conf : Config} {P Q : Kernel → Kernel → Prop} (hPQ : ∀ k k', P k k' → Q k k') {s s' : TSys} (h : TSteps conf P s s') :
    TSteps conf Q s s' := by
  induction h with
  | refl => exact .refl _
  | step _ h ih =>
    refine .step ih ?_
    cases h with
    | tick t h => exact .tick t h
    | foreign k h => exact .foreign k (hPQ _ _ h)
    | reorder l h1 h2 h3 => exact .reorder l h1 h2 h3
    | message rx h => exact .message rx h
    | maintTick h1 h2 => exact .maintTick h1 h2
    | leave h1 h2 => exact .leave h1 h2
    | lockConn id h1 h2 h3 => exact .lockConn id h1 h2 h3
    | lockMaint h1 h2 h3 => exact .lockMaint h1 h2 h3
    | lockMain h1 h2 h3 => exact .lockMain h1 h2 h3
    | nftList ok h1 h2 => exact .nftList ok h1 h2
    | nftApply ok h1 h2 => exact .nftApply ok h1 h2
    | doneConn h1 h2 h3 => exact .doneConn h1 h2 h3
    | doneMaint h1 h2 => exact .doneMaint h1 h2
    | doneMain h1 h2 => exact .doneMain h1 h2

/-- A program under the lock of a reachable state never panics. -/
theorem no_panic_ahead {conf : Config} {k0 : Kernel} {ok0 : Bool} {f : FwdState} (h0 : fwdStart conf k0 ok0 = some f)
    {P : Kernel → Kernel → Prop} (hP : Preorder' P) {h : Tagged} {s : TSys} {a : FwdState} {T : Nat} (hi : TInv conf P f h s a T) {who : Who} {since : Nat} {p : LProg}
    (hh : s.holder = some ⟨who, since, p⟩) (q : LProg) (k : Kernel) (hr : LReach P p s.kernel q k) : q.panics = false := by
  cases hp : q.panics with
  | false => rfl
  | true =>
    exfalso
    unfold LProg.panics at hp
    split at hp
    · rename_i fw
      have htrans : ∀ {p q r : LProg} {k k' k'' : Kernel}, LReach P p k q k' → LReach P q k' r k'' → LReach P p k r k'' := by
        intro p q r k k' k'' h1 h2
        induction h1 with
        | refl => exact h2
        | head h3 _ ih => exact .head h3 (ih h2)
      have hheld := hi.held
      unfold HeldInv at hheld
      rw [hh] at hheld
      obtain ⟨e1, e2, e3, e4, p0, e5, e6⟩ := hheld
      have hi' : TInv conf P f h { s with kernel := k, holder := some ⟨who, since, .ret .panic fw⟩, crashed := true } a T :=
        { hi with
          held := by
            refine ⟨e1, e2, rfl, e4, p0, ?_, htrans e6 hr⟩
            cases who <;> exact e5 }
      obtain ⟨g, _, hb⟩ := linearize hP hi' rfl
      have := C49_no_crash conf k0 ok0 f h0 ((h ++ g : Tagged).ops)
      rw [hb.run] at this
      exact this rfl
    · cases hp

/-- **C83** (answers are possible). At every moment until the main task has taken the lock for the shutdown, every connection that has delivered a message can still get its
answer: no deadlock, however the tasks have been scheduled. -/
theorem C83_answer_possible (conf : Config) (k0 : Kernel) (ok0 : Bool) (f : FwdState) (h0 : fwdStart conf k0 ok0 = some f)
    (P : Kernel → Kernel → Prop) (hP : Preorder' P) (t : Nat) (s : TSys) (h1 : TSteps conf P (TSys.start f t) s)
    (hm : s.main = .away ∨ s.main = .waiting) (id : Nat) (c : ConnTask) (hc : s.conns[id]? = some c) :
    ∃ s' ans, TSteps conf P s s' ∧ s'.conns[id]? = some ⟨c.rx, .replied ans⟩ := by
  obtain ⟨hp0, _⟩ := fwdStart_inv h0
  -- a free lock
  have free : ∀ s, TSteps conf P (TSys.start f t) s → s.alive → (s.main = .away ∨ s.main = .waiting) →
      ∃ s', TSteps conf P s s' ∧ s'.alive ∧ s'.holder = none ∧ s'.main = s.main ∧
        ∀ (id : Nat) c, s.conns[id]? = some c → (∀ a p, c.pc = .waiting a p → s'.conns[id]? = some c) ∧
          (∀ ans, c.pc = .replied ans → s'.conns[id]? = some c) ∧ (s.holder.map (·.who) = some (.conn id) → c.pc = .inside →
            ∃ ans, s'.conns[id]? = some ⟨c.rx, .replied ans⟩) := by
    intro s hs hal hm
    obtain ⟨h, a, T, hi⟩ := tinv_steps hP (tinv_start conf P f hp0 t) hs
    cases hh : s.holder with
    | none => exact ⟨s, .refl _, hal, hh, rfl, fun id c hc => ⟨fun _ _ _ => hc, fun _ _ => hc, fun h => (by cases h)⟩⟩
    | some o =>
      obtain ⟨who, since, p⟩ := o
      have hheld := hi.held
      unfold HeldInv at hheld
      rw [hh] at hheld
      obtain ⟨_, _, _, _, p0, hb, _⟩ := hheld
      have hin : ∀ i, who = .conn i → ∃ rx, s.conns[i]? = some ⟨rx, .inside⟩ := by
        intro i he; subst he
        obtain ⟨rx, _, _, h, _⟩ := hb
        exact ⟨rx, h⟩
      have hnm : who ≠ .main := by
        intro he; subst he
        rw [hb.1] at hm
        rcases hm with hm | hm <;> cases hm
      obtain ⟨s', e1, e2, e3, e4, e5, e6⟩ := release (conf := conf) hal hh (no_panic_ahead h0 hP hi hh) hin hnm
      refine ⟨s', e1, e2, e3, e4, fun i c hc => ⟨fun a p hw => e6 i c (fun he => ?_) hc, fun ans hw => e6 i c (fun he => ?_) hc, fun he hpc => ?_⟩⟩
      · obtain ⟨rx, hx⟩ := hin i he
        rw [hc] at hx; cases hx; cases hw
      · obtain ⟨rx, hx⟩ := hin i he
        rw [hc] at hx; cases hx; cases hw
      · obtain ⟨rx, pc⟩ := c
        simp only at hpc
        subst hpc
        exact e5 i rx (by simpa using he) hc
  have hinside : ∀ s, TSteps conf P (TSys.start f t) s → ∀ (id : Nat) c, s.conns[id]? = some c → c.pc = .inside →
      s.holder.map (·.who) = some (.conn id) := by
    intro s hs
    induction hs with
    | refl => intro id c hc; simp [TSys.start] at hc
    | step _ hst ih =>
      intro id c hc hpc
      cases hst with
      | tick _ _ => exact ih id c hc hpc
      | foreign _ _ => exact ih id c hc hpc
      | reorder _ _ _ _ => exact ih id c hc hpc
      | message rx _ =>
        simp only at hc
        rw [List.getElem?_append] at hc
        split at hc
        · exact ih id c hc hpc
        · rw [List.getElem?_singleton] at hc
          split at hc
          · cases hc
            unfold ConnTask.received at hpc
            simp only at hpc
            split at hpc <;> cases hpc
          · cases hc
      | maintTick _ _ => exact ih id c hc hpc
      | leave _ _ => exact ih id c hc hpc
      | lockConn i _ hn _ =>
        rcases set_get? _ _ _ _ _ hc with ⟨rfl, _⟩ | ⟨_, hc⟩
        · rfl
        · have := ih id c hc hpc
          rw [hn] at this
          cases this
      | lockMaint _ hn _ => have := ih id c hc hpc; rw [hn] at this; cases this
      | lockMain _ hn _ => have := ih id c hc hpc; rw [hn] at this; cases this
      | nftList _ _ hh => have := ih id c hc hpc; rw [hh] at this; exact this
      | nftApply _ _ hh => have := ih id c hc hpc; rw [hh] at this; exact this
      | doneConn _ hh _ =>
        rcases set_get? _ _ _ _ _ hc with ⟨rfl, rfl⟩ | ⟨hne, hc⟩
        · cases hpc
        · have := ih id c hc hpc
          rw [hh] at this
          simp at this
          exact absurd this hne
      | doneMaint _ hh => have := ih id c hc hpc; rw [hh] at this; cases this
      | doneMain _ hh => have := ih id c hc hpc; rw [hh] at this; cases this
  have hcr : ∀ s, TSteps conf P (TSys.start f t) s → s.crashed = false := fun s hs =>
    C83_no_crash conf k0 ok0 f h0 t s (TSteps.mono (fun _ _ _ => trivial) hs)
  have hal : s.alive := ⟨hcr s h1, by rcases hm with h | h <;> rw [h] <;> simp⟩
  obtain ⟨rx, pc⟩ := c
  obtain ⟨s1, e1, e2, e3, e4, e5⟩ := free s h1 hal hm
  obtain ⟨e6, e7, e8⟩ := e5 id _ hc
  cases pc with
  | replied ans => exact ⟨s, ans, .refl _, hc⟩
  | inside =>
    obtain ⟨ans, e9⟩ := e8 (hinside s h1 id _ hc rfl) rfl
    exact ⟨s1, ans, e1, e9⟩
  | waiting addr port =>
    have hc1 := e6 addr port rfl
    have hlt := (List.getElem?_eq_some_iff.1 hc1).1
    have e10 := TSteps.step e1 (.lockConn id e2 e3 hc1)
    have hs2 := TSteps.trans' h1 e10
    obtain ⟨s3, f1, _, _, _, f5⟩ := free _ hs2 ⟨hcr _ hs2, e2.2⟩ (by simpa [e4] using hm)
    obtain ⟨_, _, f6⟩ := f5 id ⟨rx, .inside⟩ (by simp [hlt])
    obtain ⟨ans, f7⟩ := f6 rfl rfl
    exact ⟨s3, ans, TSteps.trans' e10 f1, f7⟩

/-- **C83** (no answer at shutdown). When the main task has taken the lock for the shutdown, a connection that waits for the lock is never answered. -/
theorem C83_unanswered (conf : Config) (P : Kernel → Kernel → Prop) (s s' : TSys) (since : Nat) (p : LProg)
    (hh : s.holder = some ⟨.main, since, p⟩) (h : TSteps conf P s s') (id : Nat) (rx : FwRecvOut) (addr : IpAddr) (port : LeasePort)
    (hc : s.conns[id]? = some ⟨rx, .waiting addr port⟩) : s'.conns[id]? = some ⟨rx, .waiting addr port⟩ := by
  suffices hs : (s'.main = .ended ∨ ∃ since p, s'.holder = some ⟨.main, since, p⟩) ∧ s'.conns[id]? = some ⟨rx, .waiting addr port⟩ from hs.2
  induction h with
  | refl => exact ⟨.inr ⟨_, _, hh⟩, hc⟩
  | step _ hst ih =>
    obtain ⟨h1, h2⟩ := ih
    cases hst with
    | tick _ _ => exact ⟨h1, h2⟩
    | foreign _ _ => exact ⟨h1, h2⟩
    | reorder _ _ _ _ => exact ⟨h1, h2⟩
    | message rx _ =>
      refine ⟨h1, ?_⟩
      simp only
      rw [List.getElem?_append_left (List.getElem?_eq_some_iff.1 h2).1]
      exact h2
    | maintTick _ _ => exact ⟨h1, h2⟩
    | leave ha hm =>
      refine ⟨h1.elim (fun h => absurd h ha.2) .inr, h2⟩
    | lockConn i ha hn _ =>
      rcases h1 with h1 | ⟨_, _, h1⟩
      · exact absurd h1 ha.2
      · rw [hn] at h1; cases h1
    | lockMaint ha hn _ =>
      rcases h1 with h1 | ⟨_, _, h1⟩
      · exact absurd h1 ha.2
      · rw [hn] at h1; cases h1
    | lockMain ha hn _ =>
      rcases h1 with h1 | ⟨_, _, h1⟩
      · exact absurd h1 ha.2
      · rw [hn] at h1; cases h1
    | nftList _ ha h3 =>
      rcases h1 with h1 | ⟨_, _, h1⟩
      · exact absurd h1 ha.2
      · rw [h3] at h1; cases h1; exact ⟨.inr ⟨_, _, rfl⟩, h2⟩
    | nftApply _ ha h3 =>
      rcases h1 with h1 | ⟨_, _, h1⟩
      · exact absurd h1 ha.2
      · rw [h3] at h1; cases h1; exact ⟨.inr ⟨_, _, rfl⟩, h2⟩
    | doneConn ha h3 _ =>
      rcases h1 with h1 | ⟨_, _, h1⟩
      · exact absurd h1 ha.2
      · rw [h3] at h1; cases h1
    | doneMaint ha h3 =>
      rcases h1 with h1 | ⟨_, _, h1⟩
      · exact absurd h1 ha.2
      · rw [h3] at h1; cases h1
    | doneMain ha h3 => exact ⟨.inl rfl, h2⟩

theorem rebuildP_atMost {conf : Config} {fw : NftFirewall} {g : R Unit → LProg} (h : ∀ r, ∃ r' fw', g r = .ret r' fw') :
    AtMost 1 (rebuildP conf fw g) := by
  have h2 : ∀ n r, AtMost n (g r) := fun n r => by
    obtain ⟨_, _, h⟩ := h r; rw [h]; exact .ret _ _ _
  unfold rebuildP
  split
  · exact .apply _ _ _ fun ok => h2 0 _
  · exact h2 1 _
  · exact h2 1 _

/-- **C83** (the lock is held for at most three runs of `nft`). Opening a port and shutting down run `nft` at most once while they have the lock, maintenance at most
three times (listing, deletion, rebuild), whatever `nft` answers. -/
theorem C83_nft_runs (conf : Config) (fw : NftFirewall) (t : Nat) (addr : IpAddr) (port : LeasePort) :
    AtMost 1 (openPortP conf fw t addr port) ∧ AtMost 3 (maintainP conf fw t) ∧ AtMost 1 (shutdownP conf fw) := by
  refine ⟨?_, ?_, ?_⟩
  · unfold openPortP
    split
    · exact .ret _ _ _
    · simp only
      split
      · exact .ret _ _ _
      · split
        · unfold addLeaseP
          split
          · exact .apply _ _ _ fun ok => by cases ok <;> exact .ret _ _ _
          · exact .ret _ _ _
          · exact .ret _ _ _
        · exact .ret _ _ _
        · exact .ret _ _ _
  · have hrb : ∀ fw : NftFirewall, AtMost 1 (rebuildP conf fw fun r => .ret r fw) := fun fw => rebuildP_atMost fun r => ⟨_, _, rfl⟩
    have up : ∀ {n p}, AtMost n p → AtMost (n + 1) p := by
      intro n p h
      induction h with
      | ret => exact .ret _ _ _
      | list _ _ _ ih => exact .list _ _ ih
      | apply _ _ _ _ ih => exact .apply _ _ _ ih
    unfold maintainP
    split
    · exact .ret _ _ _
    · simp only
      split
      · exact .ret _ _ _
      · unfold removeLeasesP
        split
        · exact .ret _ _ _
        · refine .list _ _ fun x => ?_
          cases x with
          | none => exact up (hrb _)
          | some rules =>
            simp only
            split
            · refine .apply _ _ _ fun ok => ?_
              cases ok
              · exact hrb _
              · exact .ret _ _ _
            · exact up (hrb _)
            · exact .ret _ _ _
  · unfold shutdownP
    split
    · exact .ret _ _ _
    · exact rebuildP_atMost fun r => ⟨_, _, rfl⟩

/-! ## Concrete cases -/

/-- Events of a concrete run. -/
inductive TEvent where
  | tick (t : Nat) | foreign (k : Kernel) | message (rx : FwRecvOut) | maintTick | leave | lockConn (id : Nat) | lockMaint | lockMain | nft (ok : Bool) | done

/-- Do the event, if it is possible. -/
def tExec (conf : Config) (s : TSys) : TEvent → Option TSys
  | .tick t => if s.clock ≤ t then some { s with clock := t } else none
  | .foreign k => some { s with kernel := k }
  | .message rx => if s.crashed = false ∧ s.main ≠ .ended then some { s with conns := s.conns ++ [ConnTask.received conf rx] } else none
  | .maintTick => if s.crashed = false ∧ s.main ≠ .ended ∧ s.maint = .away then some { s with maint := .waiting } else none
  | .leave => if s.crashed = false ∧ s.main ≠ .ended ∧ s.main = .away then some { s with main := .waiting } else none
  | .lockConn id =>
    if s.crashed = false ∧ s.main ≠ .ended then
      match s.holder, s.conns[id]? with
      | none, some ⟨rx, .waiting addr port⟩ => some { s with
          conns := s.conns.set id ⟨rx, .inside⟩
          holder := some ⟨.conn id, s.clock, openPortP conf s.fw s.clock addr port⟩
          crashed := (openPortP conf s.fw s.clock addr port).panics }
      | _, _ => none
    else none
  | .lockMaint =>
    if s.crashed = false ∧ s.main ≠ .ended ∧ s.maint = .waiting then
      match s.holder with
      | none => some { s with
          maint := .inside, holder := some ⟨.maint, s.clock, maintainP conf s.fw s.clock⟩, crashed := (maintainP conf s.fw s.clock).panics }
      | some _ => none
    else none
  | .lockMain =>
    if s.crashed = false ∧ s.main ≠ .ended ∧ s.main = .waiting then
      match s.holder with
      | none => some { s with main := .inside, holder := some ⟨.main, s.clock, shutdownP conf s.fw⟩, crashed := (shutdownP conf s.fw).panics }
      | some _ => none
    else none
  | .nft ok =>
    if s.crashed = false ∧ s.main ≠ .ended then
      match s.holder with
      | some ⟨who, since, .list k⟩ => some { s with
          holder := some ⟨who, since, k (if ok then some s.kernel.rules else none)⟩
          crashed := (k (if ok then some s.kernel.rules else none)).panics }
      | some ⟨who, since, .apply cmds k⟩ => some { s with
          kernel := (runNft s.kernel cmds ok).2
          holder := some ⟨who, since, k (runNft s.kernel cmds ok).1⟩
          crashed := (k (runNft s.kernel cmds ok).1).panics }
      | _ => none
    else none
  | .done =>
    if s.crashed = false ∧ s.main ≠ .ended then
      match s.holder with
      | some ⟨.conn id, _, .ret r fw⟩ =>
        match s.conns[id]? with
        | some ⟨rx, .inside⟩ => some { s with fw, holder := none, conns := s.conns.set id ⟨rx, .replied (some (answerOf r))⟩ }
        | _ => none
      | some ⟨.maint, _, .ret r fw⟩ => some { s with fw, holder := none, maint := if r = .ok () then .away else .ended }
      | some ⟨.main, _, .ret _ fw⟩ => some { s with fw, holder := none, main := .ended }
      | _ => none
    else none

/-- Do the events. -/
def tRun (conf : Config) (s : TSys) : List TEvent → Option TSys
  | [] => some s
  | e :: es => (tExec conf s e).bind fun s' => tRun conf s' es

theorem tExec_step {conf : Config} {P : Kernel → Kernel → Prop} {s s' : TSys} {e : TEvent} (hP : ∀ k, e = .foreign k → P s.kernel k) (h : tExec conf s e = some s') :
    TStep conf P s s' := by
  cases e with
  | tick t => simp only [tExec] at h; split at h <;> cases h; exact .tick t (by assumption)
  | foreign k => cases h; exact .foreign k (hP _ rfl)
  | message rx => simp only [tExec] at h; split at h <;> cases h; exact .message rx (by assumption)
  | maintTick => simp only [tExec] at h; split at h <;> cases h; rename_i hc; exact .maintTick ⟨hc.1, hc.2.1⟩ hc.2.2
  | leave => simp only [tExec] at h; split at h <;> cases h; rename_i hc; exact .leave ⟨hc.1, hc.2.1⟩ hc.2.2
  | lockConn id =>
    simp only [tExec] at h
    split at h
    · rename_i hc
      split at h
      · rename_i h1 h2; cases h; exact .lockConn id hc h1 h2
      · cases h
    · cases h
  | lockMaint =>
    simp only [tExec] at h
    split at h
    · rename_i hc
      split at h
      · rename_i h1; cases h; exact .lockMaint ⟨hc.1, hc.2.1⟩ h1 hc.2.2
      · cases h
    · cases h
  | lockMain =>
    simp only [tExec] at h
    split at h
    · rename_i hc
      split at h
      · rename_i h1; cases h; exact .lockMain ⟨hc.1, hc.2.1⟩ h1 hc.2.2
      · cases h
    · cases h
  | nft ok =>
    simp only [tExec] at h
    split at h
    · rename_i hc
      split at h
      · rename_i h1; cases h; exact .nftList ok hc h1
      · rename_i h1; cases h; exact .nftApply ok hc h1
      · cases h
    · cases h
  | done =>
    simp only [tExec] at h
    split at h
    · rename_i hc
      split at h
      · rename_i h1
        split at h
        · rename_i h2; cases h; exact .doneConn hc h1 h2
        · cases h
      · rename_i h1; cases h; exact .doneMaint hc h1
      · rename_i h1; cases h; exact .doneMain hc h1
      · cases h
    · cases h

theorem tRun_steps {conf : Config} {P : Kernel → Kernel → Prop} {s s' : TSys} {es : List TEvent} (hP : ∀ k, .foreign k ∈ es → ∀ k0, P k0 k) (h : tRun conf s es = some s') :
    TSteps conf P s s' := by
  induction es generalizing s with
  | nil => cases h; exact .refl _
  | cons e es ih =>
    obtain ⟨s1, h1, h2⟩ := Option.bind_eq_some_iff.1 h
    exact TSteps.trans' (.step (.refl _) (tExec_step (fun k hk => hP k (by simp [hk]) _) h1)) (ih (fun k hk => hP k (by simp [hk])) h2)

/-- Two connections and the maintenance at once: the second connection gets the lock first; `nft` fails for it; while the first connection has the lock, a third sends
nonsense and is refused at once; then the lease expires, maintenance waits, and another program removes the rule between listing and deletion, so that the chain is rebuilt. -/
def busy : List TEvent :=
  [.message (.msg (FwMessage.newOpen examplePeer .Tcp 22)), .message (.msg (FwMessage.newOpen examplePeer .Udp 443)), .lockConn 1, .maintTick, .tick second, .nft false, .done,
   .lockConn 0, .message (.msg (FwMessage.newOpen (.v4 ⟨[0, 0, 0, 0], rfl⟩) .Tcp 22)), .nft true, .done,
   .tick (1000 * second), .lockMaint, .message (.msg (FwMessage.newOpen examplePeer .Tcp 22)), .nft true,
   .foreign { fwStarted.kernel with gen := 100 }, .nft true, .nft true, .done, .lockConn 3, .leave]

/-- The kind of the answer a connection has got. -/
def repliedOp (c : ConnTask) : Option FwOp :=
  match c.pc with
  | .replied (some m) => some m.operation
  | _ => none

example : ∃ s, TSteps fwConf (fun _ _ => True) (TSys.start fwStarted 0) s ∧ s.conns.map repliedOp = [some .Ack, some .Nack, some .Nack, none] ∧
    s.maint = .away ∧ s.main = .waiting ∧ s.holder.isSome = true := by
  have h : (match tRun fwConf (TSys.start fwStarted 0) busy with
      | some s => decide (s.conns.map repliedOp = [some .Ack, some .Nack, some .Nack, none]) && decide (s.maint = .away) && decide (s.main = .waiting) &&
          s.holder.isSome
      | none => false) = true := by decide +kernel
  split at h
  · rename_i s hs
    simp only [Bool.and_eq_true, decide_eq_true_eq] at h
    exact ⟨s, tRun_steps (fun _ _ _ => trivial) hs, h.1.1.1, h.1.1.2, h.1.2, h.2⟩
  · cases h

/-- In the middle of the first connection's operation: `nft` has changed the ruleset, the answer has not been given, and the packet is accepted. -/
example : ∃ s, TSteps fwConf (OwnUnchanged fwNames) (TSys.start fwStarted 0) s ∧ chainAccepts fwNames s.kernel ⟨examplePeer, .tcp, 22⟩ = true ∧
    s.conns.map repliedOp = [none] ∧ s.holder.isSome = true := by
  have h : (match tRun fwConf (TSys.start fwStarted 0) [.message (.msg (FwMessage.newOpen examplePeer .Tcp 22)), .lockConn 0, .nft true] with
      | some s => chainAccepts fwNames s.kernel ⟨examplePeer, .tcp, 22⟩ && decide (s.conns.map repliedOp = [none]) && s.holder.isSome
      | none => false) = true := by decide +kernel
  split at h
  · rename_i s hs
    simp only [Bool.and_eq_true, decide_eq_true_eq] at h
    exact ⟨s, tRun_steps (fun k hk => by simp at hk) hs, h.1.1, h.1.2, h.2⟩
  · cases h

/-- A connection waits while the daemon shuts down: it gets no answer. -/
example : ∃ s s', TSteps fwConf (fun _ _ => True) (TSys.start fwStarted 0) s ∧ TSteps fwConf (fun _ _ => True) s s' ∧
    (s.holder.map (·.who)) = some .main ∧ s'.main = .ended ∧ s'.conns.map repliedOp = [some .Ack, none] ∧
    chainAccepts fwNames s.kernel ⟨examplePeer, .tcp, 22⟩ = true ∧ chainAccepts fwNames s'.kernel ⟨examplePeer, .tcp, 22⟩ = false := by
  have h : (match tRun fwConf (TSys.start fwStarted 0) [.message (.msg (FwMessage.newOpen examplePeer .Tcp 22)), .leave, .lockConn 0,
        .message (.msg (FwMessage.newOpen examplePeer .Udp 443)), .nft true, .done, .lockMain] with
      | some s => decide ((s.holder.map (·.who)) = some .main) && chainAccepts fwNames s.kernel ⟨examplePeer, .tcp, 22⟩ &&
        (match tRun fwConf s [.nft true, .done] with
        | some s' => decide (s'.main = .ended) && decide (s'.conns.map repliedOp = [some .Ack, none]) && !chainAccepts fwNames s'.kernel ⟨examplePeer, .tcp, 22⟩
        | none => false)
      | none => false) = true := by decide +kernel
  split at h
  · rename_i s hs
    split at h
    · rename_i s' hs'
      simp only [Bool.and_eq_true, decide_eq_true_eq, Bool.not_eq_true'] at h
      exact ⟨s, s', tRun_steps (fun _ _ _ => trivial) hs, tRun_steps (fun _ _ _ => trivial) hs', h.1.1, h.2.1.1, h.2.1.2, h.1.2, h.2.2⟩
    · simp at h
  · cases h

end Letmein.Props
