import Verif.Lemmas.FwServer
import Verif.Spec.Several

/-!
# Lemmas about several runs of letmeinfwd
-/

namespace Letmein
open Spec

/-! ### Adding and removing without knowing the rest of the chain -/

/-- The rules of a lease map. -/
def leaseAll (n : NftNames) (leases : LeaseMap) : List Content := leases.flatMap (fun e => leaseContents n.family e.2)

/-- Every rule of the chain was made by letmeinfwd. -/
def Shaped (n : NftNames) (k : Kernel) : Prop :=
  ∀ c ∈ ownContents n k, (∃ q, c = ctrlContent q) ∨ ∃ b q, c = leaseContent n.family b q

theorem content_of_shape {n : NftNames} {k : Kernel} (hc : Shaped n k) {r : KRule} (hr : r ∈ ownRules n k) {a : IpAddr} {p : SinglePort}
    (h : r.comment = some (genRuleComment (some a) p)) : r.content = leaseContent n.family a p := by
  rcases hc r.content (List.mem_map_of_mem hr) with ⟨q, hq⟩ | ⟨b, q, hq⟩
  · have h2 : r.comment = some (genRuleComment none q) := congrArg Prod.fst hq
    rw [h] at h2
    have := (genRuleComment_inj (Option.some.inj h2)).1
    cases this
  · have h2 : r.comment = some (genRuleComment (some b) q) := congrArg Prod.fst hq
    rw [h] at h2
    obtain ⟨h3, h4⟩ := genRuleComment_inj (Option.some.inj h2)
    injection h3 with h3
    rw [hq, h3, h4]

theorem contents_of_shape {n : NftNames} {k : Kernel} (hc : Shaped n k) {rs : List KRule} (hr : ∀ r ∈ rs, r ∈ ownRules n k)
    {qs : List (IpAddr × SinglePort)} (h : rs.map (·.comment) = qs.map (fun q => some (genRuleComment (some q.1) q.2))) :
    rs.map KRule.content = qs.map (fun q => leaseContent n.family q.1 q.2) := by
  induction rs generalizing qs with
  | nil => cases qs with
    | nil => rfl
    | cons => simp at h
  | cons r rs ih =>
    cases qs with
    | nil => simp at h
    | cons q qs =>
      simp only [List.map_cons, List.cons.injEq] at h ⊢
      exact ⟨content_of_shape hc (hr r (by simp)) h.1, ih (fun x hx => hr x (by simp [hx])) h.2⟩

/-- Removal of expired leases takes exactly one rule per port away, or does nothing. -/
theorem removeLeases_shaped {conf : Config} {n : NftNames} (hn : ChainOf conf n) {k : Kernel} (hk : KernelOk n k) (hc : Shaped n k)
    (gone : LeaseMap) (env : NftEnv) (hu : ∀ k, OwnUnchanged n k (env.afterList k)) :
    (∃ k', removeLeases conf (gone.map (·.2)) k env = (.ok (), k') ∧ KernelOk n k' ∧
      (ownContents n k).Perm (leaseAll n gone ++ ownContents n k')) ∨
    (∃ k', removeLeases conf (gone.map (·.2)) k env = (.err, k') ∧ KernelOk n k' ∧ ownRules n k' = ownRules n k) := by
  unfold removeLeases
  split
  · rename_i hempty
    left
    have he : gone = [] := by simpa using hempty
    subst he
    exact ⟨k, rfl, hk, by simp [leaseAll]⟩
  · split
    · exact .inr ⟨_, rfl, hk, rfl⟩
    · simp only
      cases hcol : collect (genDeleteLeaseCmds conf k.rules) (gone.map (·.2)) with
      | err => exact .inr ⟨_, rfl, hk.of_unchanged (hu k), (hu k).own⟩
      | panic => exact absurd hcol (collect_not_panic (fun l _ => genDelete_not_panic conf k.rules l))
      | ok cmds =>
        simp only
        obtain ⟨rs, h1, h2, h3⟩ := genDeletes_spec hn hcol
        rcases applyBatch_cases (env.afterList k) cmds.flatten env.deleteOk with ⟨k', ha, _, hb⟩ | hb
        · left
          rw [h1] at ha
          have hu := hu k
          obtain ⟨hp, _, hk'⟩ := applyCmds_deletes (base := ownRules n k) hk.nodup h2
            (fun r hr => by rwa [hu.own] at hr) (hk.of_unchanged hu) ha
          rw [hu.own] at hp
          refine ⟨k', hb, hk', ?_⟩
          have hcont := contents_of_shape hc h2
            (qs := gone.flatMap (fun e => e.2.port.singles.map (fun p => (e.2.addr, p))))
            (by rw [h3]; simp [List.flatMap_map, List.map_flatMap, Function.comp_def])
          have hp2 := hp.map KRule.content
          rw [List.map_append, hcont] at hp2
          have hlease : (gone.flatMap (fun e => e.2.port.singles.map (fun p => (e.2.addr, p)))).map
              (fun q => leaseContent n.family q.1 q.2) = leaseAll n gone := by
            simp [leaseAll, List.map_flatMap, leaseContents, Function.comp_def]
          rw [hlease] at hp2
          exact hp2
        · exact .inr ⟨_, hb, hk.of_unchanged (hu k), (hu k).own⟩

/-- One tick of the maintenance: one rule per expired port goes, or the chain is rebuilt from the own leases, or nothing happens
and the daemon is about to end. -/
theorem maintain_shaped {conf : Config} {n : NftNames} (hn : ChainOf conf n) {fw : NftFirewall} {k : Kernel}
    (hl : LeasesOk n fw.leases) (hk : KernelOk n k) (hc : Shaped n k) (hd : fw.shutdown = false) (now : Nat) (env : NftEnv)
    (hu : ∀ k, OwnUnchanged n k (env.afterList k)) (hu' : ∀ k, OwnUnchanged n k (env.beforeRebuild k)) :
    ∃ r k', fw.maintain conf k now env = (r, { fw with leases := fw.leases.filter (fun e => !e.2.isTimedOut now) }, k') ∧ KernelOk n k' ∧
      ((r = .err ∧ ownRules n k' = ownRules n k) ∨
       (r = .ok () ∧ (ownContents n k').Perm (wanted conf n (fw.leases.filter (fun e => !e.2.isTimedOut now)))) ∨
       (r = .ok () ∧ (ownContents n k).Perm (leaseAll n (fw.leases.filter (fun e => e.2.isTimedOut now)) ++ ownContents n k'))) := by
  unfold NftFirewall.maintain
  rw [if_neg (by simp [hd])]
  by_cases he : (pruneAllLeaseTimeouts now fw.leases).2.isEmpty = true
  · simp only [he, if_true]
    refine ⟨_, _, rfl, hk, .inr (.inr ⟨rfl, ?_⟩)⟩
    have he : fw.leases.filter (fun e => e.2.isTimedOut now) = [] := by simpa [pruneAllLeaseTimeouts] using he
    rw [he]
    simp [leaseAll]
  · simp only [he, if_false, Bool.false_eq_true]
    rcases removeLeases_shaped hn hk hc (fw.leases.filter (fun e => e.2.isTimedOut now)) env hu with ⟨k', h1, h2, h3⟩ | ⟨k', h1, h2, h5⟩
    · have h1 : removeLeases conf (pruneAllLeaseTimeouts now fw.leases).2 k env = _ := h1
      rw [h1]
      exact ⟨_, _, rfl, h2, .inr (.inr ⟨rfl, h3⟩)⟩
    · have h1 : removeLeases conf (pruneAllLeaseTimeouts now fw.leases).2 k env = _ := h1
      rw [h1]
      simp only
      rcases fullRebuild_cases hn (fw := { fw with leases := fw.leases.filter (fun e => !e.2.isTimedOut now) })
        (hl.filter _).supp hd (env.beforeRebuild k') env.rebuildOk with ⟨_, h3, h4, _⟩ | h3
      · exact ⟨_, _, rfl, h4.ok, .inr (.inl ⟨h3, h4.rules⟩)⟩
      · have h3 : fullRebuild conf { fw with leases := (pruneAllLeaseTimeouts now fw.leases).1 } (env.beforeRebuild k')
          env.rebuildOk = _ := h3
        refine ⟨_, _, rfl, ?_, .inl ?_⟩
        · rw [h3]; exact h2.of_unchanged (hu' k')
        · rw [h3]; exact ⟨rfl, (hu' k').own.trans h5⟩

/-- A successful opening adds to the chain what it adds to the lease map. -/
theorem openPort_adds {conf : Config} {n : NftNames} (hn : ChainOf conf n) {fw fw' : NftFirewall} {k k' : Kernel}
    (_hl : LeasesOk n fw.leases) (hc : KernelOk n k) (hd : fw.shutdown = false) {now : Nat} {addr : IpAddr} {port : LeasePort} {ok : Bool}
    (h : fw.openPort conf k now addr port ok = (.ok (), fw', k')) :
    ∃ add, ownContents n k' = ownContents n k ++ add ∧ leaseAll n fw'.leases = leaseAll n fw.leases ++ add ∧
      ∀ c ∈ add, ∃ q ∈ port.singles, c = leaseContent n.family addr q := by
  unfold NftFirewall.openPort at h
  rw [if_neg (by simp [hd])] at h
  simp only at h
  split at h
  · injection h with _ h
    injection h with h1 h2
    subst h1 h2
    refine ⟨[], by simp, ?_, by simp⟩
    simp only [leaseAll, leaseUpdate, List.flatMap_map, List.append_nil]
    congr 1
    funext e
    split <;> rfl
  · split at h
    · rename_i lease hnew
      have hle : lease = { addr, port, timeout := now + conf.nftTimeout } := by
        unfold Lease.new rassert at hnew
        split at hnew
        · simp at hnew; exact hnew.symm
        · simp at hnew
      simp only [addLease] at h
      by_cases hs : Supported n.family addr
      · rw [genAddLeaseCmds_ok hn (by rw [hle]; exact hs)] at h
        obtain ⟨kk, h1, h2, h3, h4⟩ := applyCmds_adds (leaseContents n.family lease) hc
        cases ok with
        | false => simp [applyBatch] at h
        | true =>
          simp only [applyBatch, h1, if_true] at h
          injection h with _ h
          injection h with h5 h6
          subst h5 h6
          refine ⟨_, h2, by simp [leaseAll], ?_⟩
          intro c hcm
          obtain ⟨q, hq, rfl⟩ := List.mem_map.1 hcm
          exact ⟨q, by rw [hle] at hq; exact hq, by rw [hle]⟩
      · rw [genAddLeaseCmds_err hn (by rw [hle]; exact hs)] at h
        simp at h
    · simp at h
    · simp at h

/-! ### Sums -/

/-- How often the runs together claim a rule. -/
def claimed (cl : List (List Content)) (c : Content) : Nat := (cl.map (List.count c)).sum

theorem claimed_set {cl : List (List Content)} {i : Nat} {x : List Content} (h : cl[i]? = some x) (y : List Content) (c : Content) :
    claimed (cl.set i y) c + x.count c = claimed cl c + y.count c := by
  induction cl generalizing i with
  | nil => simp at h
  | cons z zs ih =>
    cases i with
    | zero => simp at h; subst h; simp [claimed]; omega
    | succ i =>
      simp at h
      have := ih h
      simp only [claimed, List.set_cons_succ, List.map_cons, List.sum_cons] at this ⊢
      omega

theorem claimed_ge {cl : List (List Content)} {i : Nat} {x : List Content} (h : cl[i]? = some x) (c : Content) :
    x.count c ≤ claimed cl c := by
  have := claimed_set h [] c
  simp at this
  omega

theorem claimed_pos {cl : List (List Content)} {c : Content} (h : 0 < claimed cl c) : ∃ (i : Nat) (x : List Content), cl[i]? = some x ∧ c ∈ x := by
  induction cl with
  | nil => simp [claimed] at h
  | cons z zs ih =>
    by_cases hz : c ∈ z
    · exact ⟨0, z, rfl, hz⟩
    · have : 0 < claimed zs c := by
        simp only [claimed, List.map_cons, List.sum_cons, List.count_eq_zero_of_not_mem hz, Nat.zero_add] at h
        exact h
      obtain ⟨i, x, h1, h2⟩ := ih this
      exact ⟨i + 1, x, by simpa using h1, h2⟩

/-! ### What holds of one run -/

/-- The rules a run answers for belong to its grants. -/
def ClaimIn (n : NftNames) (cl : List Content) (g : Grants) : Prop :=
  ∀ c ∈ cl, ∃ a p e q, g a p = some e ∧ q ∈ p.singles ∧ Supported n.family a ∧ c = leaseContent n.family a q

/-- What holds of a run, the rules it answers for, and its grants. -/
def RunOk (n : NftNames) (p : FwInstance) (cl : List Content) (t : Option Grants) : Prop :=
  ChainOf p.conf n ∧
  match p.phase with
  | .running => ∃ g, t = some g ∧ LeasesOk n p.fw.leases ∧ p.fw.shutdown = false ∧ TableOf p.fw.leases g ∧ cl.Perm (leaseAll n p.fw.leases)
  | .stopping => ∃ g, t = some g ∧ LeasesOk n p.fw.leases ∧ p.fw.shutdown = false ∧ ClaimIn n cl g
  | _ => (∃ g, t = some g ∧ ClaimIn n cl g) ∨ (t = none ∧ cl = [])

theorem claimIn_leases {n : NftNames} {leases : LeaseMap} {g : Grants} (hl : LeasesOk n leases) (ht : TableOf leases g) :
    ClaimIn n (leaseAll n leases) g := by
  intro c hc
  obtain ⟨e, he, hc⟩ := List.mem_flatMap.1 hc
  obtain ⟨q, hq, rfl⟩ := List.mem_map.1 hc
  have hk := hl.keys e he
  refine ⟨e.2.addr, e.2.port, e.2.timeout, q, (ht _ _ _).2 ⟨e.2, ?_, rfl⟩, hq, hl.supp e he, rfl⟩
  rw [← hk]
  exact he

theorem RunOk.claim {n : NftNames} {p : FwInstance} {cl : List Content} {g : Grants} (h : RunOk n p cl (some g)) : ClaimIn n cl g := by
  obtain ⟨_, h⟩ := h
  cases hp : p.phase <;> simp only [hp] at h
  · obtain ⟨g', h1, h2, _, h3, h4⟩ := h
    injection h1 with h1
    subst h1
    exact fun c hc => claimIn_leases h2 h3 c (h4.subset hc)
  · obtain ⟨g', h1, _, _, h2⟩ := h
    injection h1 with h1
    subst h1
    exact h2
  · rcases h with ⟨g', h1, h2⟩ | ⟨h1, _⟩
    · injection h1 with h1; subst h1; exact h2
    · cases h1
  · rcases h with ⟨g', h1, h2⟩ | ⟨h1, _⟩
    · injection h1 with h1; subst h1; exact h2
    · cases h1

theorem RunOk.none {n : NftNames} {p : FwInstance} {cl : List Content} (h : RunOk n p cl none) : cl = [] := by
  obtain ⟨_, h⟩ := h
  cases hp : p.phase <;> simp only [hp] at h
  · obtain ⟨_, h1, _⟩ := h; cases h1
  · obtain ⟨_, h1, _⟩ := h; cases h1
  · rcases h with ⟨_, h1, _⟩ | ⟨_, h1⟩
    · cases h1
    · exact h1
  · rcases h with ⟨_, h1, _⟩ | ⟨_, h1⟩
    · cases h1
    · exact h1

theorem RunOk.dead {n : NftNames} {p : FwInstance} {cl : List Content} {t : Option Grants} (h : RunOk n p cl t) {p' : FwInstance}
    (hc : p'.conf = p.conf) (hd : p'.phase.alive = false) : RunOk n p' cl t := by
  have h' : (∃ g, t = some g ∧ ClaimIn n cl g) ∨ (t = Option.none ∧ cl = []) := by
    cases t with
    | none => exact .inr ⟨rfl, h.none⟩
    | some g => exact .inl ⟨g, rfl, h.claim⟩
  refine ⟨hc ▸ h.1, ?_⟩
  cases hp : p'.phase <;> rw [hp] at hd
  · cases hd
  · cases hd
  · exact h'
  · exact h'

/-- What holds of the host. -/
structure HostInv (n : NftNames) (h : FwHost) (ts : List (Option Grants)) (cls : List (List Content)) : Prop where
  lenT : ts.length = h.procs.length
  lenC : cls.length = h.procs.length
  ok : KernelOk n h.kernel
  runs : ∀ (i : Nat) (p : FwInstance) (cl : List Content) (t : Option Grants),
    h.procs[i]? = some p → cls[i]? = some cl → ts[i]? = some t → RunOk n p cl t
  shape : ∀ c ∈ ownContents n h.kernel,
    (∃ (i : Nat) (p : FwInstance) (g : Grants), h.procs[i]? = some p ∧ ts[i]? = some (some g) ∧ c ∈ ctrlContents p.conf) ∨
    ∃ a q, c = leaseContent n.family a q
  bound : ∀ a q, (ownContents n h.kernel).count (leaseContent n.family a q) ≤ claimed cls (leaseContent n.family a q)

theorem ctrlContents_shape {conf : Config} {c : Content} (h : c ∈ ctrlContents conf) : ∃ q, c = ctrlContent q := by
  unfold ctrlContents at h
  rcases List.mem_append.1 h with h | h <;> split at h <;> simp at h <;> exact ⟨_, h⟩

theorem HostInv.shaped {n : NftNames} {h : FwHost} {ts : List (Option Grants)} {cls : List (List Content)} (hi : HostInv n h ts cls) :
    Shaped n h.kernel := by
  intro c hc
  rcases hi.shape c hc with ⟨_, _, _, _, _, h⟩ | h
  · exact .inl (ctrlContents_shape h)
  · exact .inr h

/-- What the chain accepts is what somebody answers for. -/
theorem HostInv.accepts {n : NftNames} {h : FwHost} {ts : List (Option Grants)} {cls : List (List Content)} (hi : HostInv n h ts cls)
    {pkt : Packet} (ha : chainAccepts n h.kernel pkt = true) :
    ∃ (i : Nat) (p : FwInstance) (g : Grants), h.procs[i]? = some p ∧ ts[i]? = some (some g) ∧
      (toControlPort p.conf pkt ∨ ∃ a q e, g a q = some e ∧ covers a q pkt) := by
  rw [chainAccepts_contents, Bool.and_eq_true, List.any_eq_true] at ha
  obtain ⟨hs, c, hc, hr⟩ := ha
  rcases hi.shape c hc with ⟨i, p, g, h1, h2, h3⟩ | ⟨a, q, rfl⟩
  · exact ⟨i, p, g, h1, h2, .inl ((ctrlContents_accept _ _).1 (List.any_eq_true.2 ⟨c, h3, hr⟩))⟩
  · have hpos : 0 < claimed cls (leaseContent n.family a q) :=
      Nat.lt_of_lt_of_le (List.count_pos_iff.2 hc) (hi.bound a q)
    obtain ⟨i, cl, h1, h2⟩ := claimed_pos hpos
    have hlt : i < h.procs.length := by rw [← hi.lenC]; exact (List.getElem?_eq_some_iff.1 h1).1
    have hlt' : i < ts.length := by rw [hi.lenT]; exact hlt
    have hrun := hi.runs i _ cl _ (List.getElem?_eq_getElem hlt) h1 (List.getElem?_eq_getElem hlt')
    cases ht : ts[i] with
    | none =>
      rw [ht] at hrun
      rw [hrun.none] at h2
      cases h2
    | some g =>
      rw [ht] at hrun
      obtain ⟨a', p', e, q', h3, h4, h5, h6⟩ := hrun.claim _ h2
      refine ⟨i, _, g, List.getElem?_eq_getElem hlt, by rw [List.getElem?_eq_getElem hlt', ht], .inr ⟨a', p', e, h3, ?_⟩⟩
      rw [h6] at hr
      have := (lease_accepts h5 q' pkt).1 (by rw [hs, hr]; rfl)
      exact ⟨this.1, (singles_cover p' pkt).1 ⟨q', h4, this.2⟩⟩

/-! ### Steps -/

/-- Somebody else changed other chains, or nothing happened. -/
theorem HostInv.unchanged {n : NftNames} {h : FwHost} {ts : List (Option Grants)} {cls : List (List Content)} (hi : HostInv n h ts cls)
    {k : Kernel} (hk : KernelOk n k) (u : ownRules n k = ownRules n h.kernel) : HostInv n ⟨h.procs, k⟩ ts cls :=
  ⟨hi.lenT, hi.lenC, hk, hi.runs, by simp only [ownContents, u]; exact hi.shape, by simp only [ownContents, u]; exact hi.bound⟩

theorem set_get {α : Type} {l : List α} {i j : Nat} {x y : α} (h : (l.set i x)[j]? = some y) :
    (i = j ∧ y = x) ∨ (i ≠ j ∧ l[j]? = some y) := by
  by_cases hij : i = j
  · subst hij
    left
    obtain ⟨hlt, h⟩ := List.getElem?_eq_some_iff.1 h
    simp at h
    exact ⟨rfl, h.symm⟩
  · rw [List.getElem?_set_ne hij] at h
    exact .inr ⟨hij, h⟩

/-- Changing one run and the chain. -/
theorem HostInv.change {n : NftNames} {h : FwHost} {ts : List (Option Grants)} {cls : List (List Content)} (hi : HostInv n h ts cls)
    {i : Nat} {p p' : FwInstance} {cl cl' : List Content} {t : Option Grants} {g' : Grants} {k : Kernel} (hp : h.procs[i]? = some p)
    (hcl : cls[i]? = some cl) (ht : ts[i]? = some t) (hc : p'.conf = p.conf) (hr : RunOk n p' cl' (some g')) (hk : KernelOk n k)
    (hshape : ∀ c ∈ ownContents n k, c ∈ ownContents n h.kernel ∨ c ∈ ctrlContents p.conf ∨ ∃ a q, c = leaseContent n.family a q)
    (hbound : ∀ a q, (ownContents n k).count (leaseContent n.family a q) ≤ cl'.count (leaseContent n.family a q) ∨
      (ownContents n k).count (leaseContent n.family a q) + cl.count (leaseContent n.family a q) ≤
        (ownContents n h.kernel).count (leaseContent n.family a q) + cl'.count (leaseContent n.family a q)) :
    HostInv n ⟨h.procs.set i p', k⟩ (ts.set i (some g')) (cls.set i cl') := by
  have hlp : i < h.procs.length := (List.getElem?_eq_some_iff.1 hp).1
  have hlt : i < ts.length := (List.getElem?_eq_some_iff.1 ht).1
  have hlc : i < cls.length := (List.getElem?_eq_some_iff.1 hcl).1
  have gi : (h.procs.set i p')[i]? = some p' := by simp [hlp]
  have ti : (ts.set i (some g'))[i]? = some (some g') := by simp [hlt]
  have ci : (cls.set i cl')[i]? = some cl' := by simp [hlc]
  refine ⟨by simp [hi.lenT], by simp [hi.lenC], hk, ?_, ?_, ?_⟩
  · intro j q c u h1 h2 h3
    simp only at h1
    rcases set_get h1 with ⟨rfl, rfl⟩ | ⟨hne, h1⟩
    · rw [ci] at h2; rw [ti] at h3
      injection h2 with h2; injection h3 with h3
      subst h2 h3
      exact hr
    · rw [List.getElem?_set_ne hne] at h2 h3
      exact hi.runs j q c u h1 h2 h3
  · intro c hcm
    have own : c ∈ ctrlContents p.conf → (∃ (i_1 : Nat) (p_1 : FwInstance) (g : Grants), (h.procs.set i p')[i_1]? = some p_1 ∧
        (ts.set i (some g'))[i_1]? = some (some g) ∧ c ∈ ctrlContents p_1.conf) :=
      fun hx => ⟨i, p', g', gi, ti, by rw [hc]; exact hx⟩
    rcases hshape c hcm with hx | hx | hx
    · rcases hi.shape c hx with ⟨j, q, g, h1, h2, h3⟩ | hx
      · left
        by_cases hij : i = j
        · subst hij
          rw [hp] at h1
          injection h1 with h1
          subst h1
          exact own h3
        · exact ⟨j, q, g, by simpa [List.getElem?_set_ne hij] using h1, by simpa [List.getElem?_set_ne hij] using h2, h3⟩
      · exact .inr hx
    · exact .inl (own hx)
    · exact .inr hx
  · intro a q
    have := hbound a q
    have h2 := claimed_set hcl cl' (leaseContent n.family a q)
    have h3 := hi.bound a q
    have h4 := claimed_ge ci (leaseContent n.family a q)
    simp only
    omega

/-- One run changes in a way that does not matter to the others. -/
theorem HostInv.touch {n : NftNames} {h : FwHost} {ts : List (Option Grants)} {cls : List (List Content)} (hi : HostInv n h ts cls)
    {i : Nat} {p p' : FwInstance} {cl : List Content} {t : Option Grants} {k : Kernel} (hp : h.procs[i]? = some p)
    (hcl : cls[i]? = some cl) (ht : ts[i]? = some t) (hc : p'.conf = p.conf) (hr : RunOk n p' cl t) (hk : KernelOk n k)
    (u : ownRules n k = ownRules n h.kernel) : HostInv n ⟨h.procs.set i p', k⟩ ts cls := by
  have hlp : i < h.procs.length := (List.getElem?_eq_some_iff.1 hp).1
  refine ⟨by simp [hi.lenT], by simp [hi.lenC], hk, ?_, ?_, by simp only [ownContents, u]; exact hi.bound⟩
  · intro j q c v h1 h2 h3
    simp only at h1
    rcases set_get h1 with ⟨rfl, rfl⟩ | ⟨hne, h1⟩
    · rw [hcl] at h2; rw [ht] at h3
      injection h2 with h2; injection h3 with h3
      subst h2 h3
      exact hr
    · exact hi.runs j q c v h1 h2 h3
  · intro c hcm
    simp only [ownContents, u] at hcm
    rcases hi.shape c hcm with ⟨j, q, g, h1, h2, h3⟩ | hx
    · left
      by_cases hij : i = j
      · subst hij
        rw [hp] at h1
        injection h1 with h1
        subst h1
        exact ⟨i, p', g, by simp [hlp], h2, by rw [hc]; exact h3⟩
      · exact ⟨j, q, g, by simpa [List.getElem?_set_ne hij] using h1, h2, h3⟩
    · exact .inr hx

theorem ctrl_ne_lease (q : SinglePort) (f : NfFamily) (a : IpAddr) (q' : SinglePort) : ctrlContent q ≠ leaseContent f a q' := by
  intro h
  have := congrArg Prod.fst h
  have := (genRuleComment_inj (Option.some.inj this)).1
  cases this

/-- Nobody answers for the rules of an ended run once the chain is empty. -/
def sweptClaims (procs : List FwInstance) (cls : List (List Content)) : List (List Content) :=
  List.zipWith (fun p c => if p.phase.alive then c else []) procs cls

/-- The chain has been emptied and holds at most the control port of a living run. -/
theorem hostInv_sweep {n : NftNames} {procs : List FwInstance} {k : Kernel} {ts : List (Option Grants)} {cls : List (List Content)}
    (lenT : ts.length = procs.length) (lenC : cls.length = procs.length) (hk : KernelOk n k)
    (runs : ∀ (i : Nat) (p : FwInstance) (cl : List Content) (t : Option Grants),
      procs[i]? = some p → cls[i]? = some cl → ts[i]? = some t → RunOk n p cl t)
    (hown : ∀ c ∈ ownContents n k, ∃ (i : Nat) (p : FwInstance) (g : Grants), procs[i]? = some p ∧ p.phase.alive = true ∧
      ts[i]? = some (some g) ∧ c ∈ ctrlContents p.conf) :
    HostInv n ⟨procs, k⟩ (swept procs ts) (sweptClaims procs cls) := by
  refine ⟨by simp [swept, lenT], by simp [sweptClaims, lenC], hk, ?_, ?_, ?_⟩
  · intro i p cl t h1 h2 h3
    simp only at h1
    simp only [sweptClaims, List.getElem?_zipWith, h1] at h2
    simp only [swept, List.getElem?_zipWith, h1] at h3
    cases hc : cls[i]? with
    | none => rw [hc] at h2; simp at h2
    | some cl0 =>
      cases ht : ts[i]? with
      | none => rw [ht] at h3; simp at h3
      | some t0 =>
        rw [hc] at h2; rw [ht] at h3
        have hr := runs i p cl0 t0 h1 hc ht
        by_cases hal : p.phase.alive = true
        · simp [hal] at h2 h3
          subst h2 h3
          exact hr
        · simp [hal] at h2 h3
          subst h2 h3
          refine ⟨hr.1, ?_⟩
          cases hp : p.phase <;> rw [hp] at hal
          · exact absurd rfl hal
          · exact absurd rfl hal
          · exact .inr ⟨rfl, rfl⟩
          · exact .inr ⟨rfl, rfl⟩
  · intro c hc
    obtain ⟨i, p, g, h1, h2, h3, h4⟩ := hown c hc
    exact .inl ⟨i, p, g, h1, by simp [swept, List.getElem?_zipWith, h1, h3, h2], h4⟩
  · intro a q
    rw [List.count_eq_zero_of_not_mem]
    · exact Nat.zero_le _
    · intro hm
      obtain ⟨i, p, g, _, _, _, h4⟩ := hown _ hm
      obtain ⟨q', hq'⟩ := ctrlContents_shape h4
      exact ctrl_ne_lease _ _ _ _ hq'.symm

/-- A start, as seen from the chain. -/
theorem start_cases {conf : Config} {n : NftNames} (hn : ChainOf conf n) (k : Kernel) (ok : Bool) :
    (∃ s, fwdStart conf k ok = some s ∧ s.phase = .running ∧ s.fw = ⟨[], false⟩ ∧ ChainOk conf n [] s.kernel) ∨
    (fwdStart conf k ok = none ∧ (NftFirewall.new conf k ok).2 = k) := by
  unfold fwdStart NftFirewall.new
  rcases fullRebuild_cases hn (fw := { leases := [], shutdown := false }) (by simp) rfl k ok with ⟨_, h1, h2, _⟩ | h1
  · left
    dsimp only
    generalize fullRebuild conf { leases := [], shutdown := false } k ok = x at h1 h2
    obtain ⟨r, k'⟩ := x
    simp only at h1 h2
    subst h1
    exact ⟨_, rfl, rfl, rfl, h2⟩
  · right
    dsimp only
    rw [h1]
    exact ⟨rfl, rfl⟩

/-- A start keeps the invariant; there may be anything in the chain before the first one. -/
theorem hostStart_inv {n : NftNames} {h : FwHost} {ts : List (Option Grants)} {cls : List (List Content)} {conf : Config} (hn : ChainOf conf n)
    (hi : (h.procs = [] ∧ ts = [] ∧ cls = []) ∨ HostInv n h ts cls) {k : Kernel} {fw : NftFirewall} (hfw : fw = ⟨[], false⟩)
    (hk : ChainOk conf n [] k) :
    ∃ cls', HostInv n ⟨h.procs ++ [⟨conf, .running, fw⟩], k⟩ (swept (h.procs ++ [⟨conf, .running, fw⟩]) (ts ++ [some Grants.none])) cls' := by
  subst hfw
  have lenT : ts.length = h.procs.length := by
    rcases hi with ⟨h1, h2, _⟩ | hi
    · simp [h1, h2]
    · exact hi.lenT
  have lenC : cls.length = h.procs.length := by
    rcases hi with ⟨h1, _, h2⟩ | hi
    · simp [h1, h2]
    · exact hi.lenC
  have hnew : RunOk n ⟨conf, .running, ⟨[], false⟩⟩ [] (some Grants.none) :=
    ⟨hn, Grants.none, rfl, ⟨by simp, by simp, by simp⟩, rfl, by intro a p e; simp [Grants.none], by simp [leaseAll]⟩
  refine ⟨_, hostInv_sweep (cls := cls ++ [[]]) (by simp [lenT]) (by simp [lenC]) hk.ok ?_ ?_⟩
  · intro i p cl t h1 h2 h3
    by_cases hlt : i < h.procs.length
    · rw [List.getElem?_append_left hlt] at h1
      rw [List.getElem?_append_left (by omega)] at h2 h3
      rcases hi with ⟨h4, _⟩ | hi
      · simp [h4] at hlt
      · exact hi.runs i p cl t h1 h2 h3
    · have hlast : i = h.procs.length := by
        have := (List.getElem?_eq_some_iff.1 h1).1
        simp at this
        omega
      subst hlast
      rw [List.getElem?_append_right (Nat.le_refl _)] at h1
      rw [List.getElem?_append_right (by omega)] at h2 h3
      simp [lenT, lenC] at h1 h2 h3
      subst h1 h2 h3
      exact hnew
  · intro c hc
    refine ⟨h.procs.length, ⟨conf, .running, ⟨[], false⟩⟩, Grants.none, by simp, rfl, ?_, ?_⟩
    · rw [List.getElem?_append_right (by omega)]; simp [lenT]
    · have := hk.rules.subset hc
      simpa [wanted] using this

theorem reply_granted_claim {n : NftNames} {cl : List Content} {g : Grants} {a : IpAddr} {p : LeasePort} {e : Nat} (h : ClaimIn n cl g) :
    ClaimIn n cl (fun a' p' => if a' = a ∧ p' = p then some e else g a' p') := by
  intro c hc
  obtain ⟨a', p', e', q, h1, h2⟩ := h c hc
  by_cases hx : a' = a ∧ p' = p
  · exact ⟨a', p', e, q, by simp only [if_pos hx], h2⟩
  · exact ⟨a', p', e', q, by simp only [if_neg hx]; exact h1, h2⟩

/-- An operation of one run keeps the invariant. -/
theorem hostAct_inv {n : NftNames} {h : FwHost} {ts : List (Option Grants)} {cls : List (List Content)} (hi : HostInv n h ts cls) (i : Nat)
    (op : FwdOp) (hf : HostEventFair n h (.act i op)) :
    ∃ cls', HostInv n (hostStep h (.act i op)).2 (tablesStep h ts (.act i op) (hostStep h (.act i op)).1 (hostStep h (.act i op)).2) cls' := by
  cases hp : h.procs[i]? with
  | none =>
    simp only [hostStep, hp, tablesStep]
    exact ⟨cls, hi⟩
  | some p =>
    have hlp : i < h.procs.length := (List.getElem?_eq_some_iff.1 hp).1
    obtain ⟨t, ht⟩ : ∃ t, ts[i]? = some t := ⟨_, List.getElem?_eq_getElem (by rw [hi.lenT]; exact hlp)⟩
    obtain ⟨cl, hcl⟩ : ∃ cl, cls[i]? = some cl := ⟨_, List.getElem?_eq_getElem (by rw [hi.lenC]; exact hlp)⟩
    have hr := hi.runs i p cl t hp hcl ht
    have hfair := hf p hp
    obtain ⟨conf, phase, fw⟩ := p
    have hself : ∀ x : FwInstance, (h.procs.set i x)[i]? = some x := by intro x; simp [hlp]
    have hset : ∀ g, t = some g → ts.set i (some g) = ts := by
      intro g hg
      subst hg
      have hl := (List.getElem?_eq_some_iff.1 ht).1
      have := (List.getElem?_eq_some_iff.1 ht).2
      rw [← this]
      simp
    -- a run that has ended
    have dead : phase.alive = false → ∃ cls', HostInv n (hostStep h (.act i op)).2
        (tablesStep h ts (.act i op) (hostStep h (.act i op)).1 (hostStep h (.act i op)).2) cls' := by
      intro hd
      have hres : ∃ fw' k', fwdStep conf (FwInstance.state ⟨conf, phase, fw⟩ h.kernel) op = (none, ⟨phase, fw', k'⟩) ∧ KernelOk n k' ∧
          ownRules n k' = ownRules n h.kernel := by
        cases op with
        | foreign k => exact ⟨_, _, rfl, hi.ok.of_unchanged hfair, hfair.own⟩
        | reorder l => exact ⟨_, _, rfl, hi.ok, rfl⟩
        | terminate ok =>
          refine ⟨fw, h.kernel, ?_, hi.ok, rfl⟩
          cases phase <;> first | rfl | cases hd
        | request rx now ok =>
          refine ⟨fw, h.kernel, ?_, hi.ok, rfl⟩
          cases phase <;> first | rfl | cases hd
        | maintain now env =>
          refine ⟨fw, h.kernel, ?_, hi.ok, rfl⟩
          cases phase <;> first | rfl | cases hd
      obtain ⟨fw', k', h1, h2, h3⟩ := hres
      simp only [hostStep, hp, h1]
      refine ⟨cls, ?_⟩
      have htab : tablesStep h ts (.act i op) (.reply none) ⟨h.procs.set i ⟨conf, phase, fw'⟩, k'⟩ = ts := by
        simp only [tablesStep, hp, hself, ht]
        cases t with
        | none => rfl
        | some g =>
          simp only
          cases op with
          | foreign k => simp only [Grants.step, granted]; exact hset g rfl
          | reorder l => simp only [Grants.step, granted]; exact hset g rfl
          | terminate ok => simp [hd]
          | request rx now ok =>
            have : granted (.request rx now ok) none = none := by cases rx <;> rfl
            simp only [Grants.step, this]; exact hset g rfl
          | maintain now env =>
            rw [if_neg]
            intro hx
            rw [show phase = .running from hx] at hd
            cases hd
      rw [htab]
      exact hi.touch hp hcl ht rfl (hr.dead rfl hd) h2 h3
    by_cases hal : phase.alive = true
    · -- a living run
      have hliv : ∃ g, t = some g ∧ LeasesOk n fw.leases ∧ fw.shutdown = false := by
        obtain ⟨_, hr⟩ := hr
        cases phase with
        | running => obtain ⟨g, h1, h2, h3, _⟩ := hr; exact ⟨g, h1, h2, h3⟩
        | stopping => obtain ⟨g, h1, h2, h3, _⟩ := hr; exact ⟨g, h1, h2, h3⟩
        | stopped => cases hal
        | crashed => cases hal
      obtain ⟨g, rfl, hl, hs⟩ := hliv
      have hn : ChainOf conf n := hr.1
      cases op with
      | foreign k =>
        simp only [hostStep, hp, fwdStep, FwInstance.state]
        refine ⟨cls, ?_⟩
        simp only [tablesStep, hp, hself, ht, Grants.step, granted, hset g rfl]
        exact hi.touch hp hcl ht rfl hr (hi.ok.of_unchanged hfair) hfair.own
      | reorder l =>
        have hperm : l.Perm fw.leases := hfair
        simp only [hostStep, hp, fwdStep, FwInstance.state]
        refine ⟨cls, ?_⟩
        simp only [tablesStep, hp, hself, ht, Grants.step, granted, hset g rfl]
        refine hi.touch hp hcl ht rfl ⟨hn, ?_⟩ hi.ok rfl
        obtain ⟨_, hr⟩ := hr
        cases phase with
        | running =>
          obtain ⟨g', h1, h2, h3, h4, h5⟩ := hr
          refine ⟨g', h1, h2.perm hperm, h3, ?_, h5.trans (List.Perm.flatMap_right _ hperm.symm)⟩
          intro a q e
          rw [h4 a q e]
          constructor
          · rintro ⟨l', hm, hx⟩; exact ⟨l', hperm.symm.subset hm, hx⟩
          · rintro ⟨l', hm, hx⟩; exact ⟨l', hperm.subset hm, hx⟩
        | stopping =>
          obtain ⟨g', h1, h2, h3, h4⟩ := hr
          exact ⟨g', h1, h2.perm hperm, h3, h4⟩
        | stopped => cases hal
        | crashed => cases hal
      | terminate ok =>
        have hstep : fwdStep conf (FwInstance.state ⟨conf, phase, fw⟩ h.kernel) (.terminate ok) =
            (none, ⟨.stopped, ⟨[], true⟩, if ok then flushed n h.kernel else h.kernel⟩) := by
          have : ∀ ph : FwdPhase, ph.alive = true → fwdStep conf ⟨ph, fw, h.kernel⟩ (.terminate ok) =
              (none, ⟨.stopped, ⟨[], true⟩, if ok then flushed n h.kernel else h.kernel⟩) := by
            intro ph hph
            cases ph with
            | running => cases ok <;> simp [fwdStep, NftFirewall.doShutdown, hs, fullRebuild_shutdown hn (fw := { leases := [], shutdown := true }) rfl]
            | stopping => cases ok <;> simp [fwdStep, NftFirewall.doShutdown, hs, fullRebuild_shutdown hn (fw := { leases := [], shutdown := true }) rfl]
            | stopped => cases hph
            | crashed => cases hph
          exact this phase hal
        simp only [hostStep, hp, hstep, tablesStep, hself, ht, hal, Bool.and_true]
        have hdead : RunOk n ⟨conf, .stopped, ⟨[], true⟩⟩ cl (some g) := hr.dead rfl rfl
        cases ok with
        | false =>
          simp only [Bool.false_eq_true, if_false]
          exact ⟨cls, hi.touch hp hcl ht rfl hdead hi.ok rfl⟩
        | true =>
          simp only [if_true]
          have hi' := hi.touch (p' := ⟨conf, .stopped, ⟨[], true⟩⟩) hp hcl ht rfl hdead hi.ok rfl
          refine ⟨_, hostInv_sweep hi'.lenT hi'.lenC ⟨by simp [flushed_own], by simp [flushed_own]⟩ hi'.runs ?_⟩
          intro c hc
          simp [ownContents, flushed_own] at hc
      | request rx now ok =>
        have hstep : ∀ r reply fw' k', handleMessage conf fw h.kernel rx now ok = (r, reply, fw', k') → r ≠ .panic →
            fwdStep conf (FwInstance.state ⟨conf, phase, fw⟩ h.kernel) (.request rx now ok) = (reply, ⟨phase, fw', k'⟩) := by
          intro r reply fw' k' he hnp
          cases phase with
          | running => simp only [fwdStep, FwInstance.state, he]
          | stopping => simp only [fwdStep, FwInstance.state, he]
          | stopped => cases hal
          | crashed => cases hal
        rcases request_cases hn hl hi.ok hs rx now ok with ⟨r, reply, he, hnp, hg, _⟩ | ⟨a, q, fw', k', hdec, he, hg, h5, h6, h7, h8, _, _, hsup, _⟩
        · simp only [hostStep, hp, hstep _ _ _ _ he hnp, tablesStep, hself, ht, Grants.step, hg, hset g rfl]
          exact ⟨cls, hi.touch hp hcl ht rfl hr hi.ok rfl⟩
        · have hop : fw.openPort conf h.kernel now a q ok = (.ok (), fw', k') := by
            unfold handleMessage at he
            rw [hdec] at he
            simp only at he
            generalize fw.openPort conf h.kernel now a q ok = x at he ⊢
            obtain ⟨r, f, kk⟩ := x
            cases r with
            | ok u => simp only [Prod.mk.injEq, true_and] at he ⊢; exact he
            | err => simp [FwMessage.newAck, FwMessage.newNack] at he
            | panic => simp at he
          obtain ⟨add, ha1, ha2, ha3⟩ := openPort_adds hn hl hi.ok hs hop
          simp only [hostStep, hp, hstep _ _ _ _ he (by simp), tablesStep, hself, ht, Grants.step, hg]
          refine ⟨cls.set i (cl ++ add), ?_⟩
          refine hi.change hp hcl ht rfl ⟨hn, ?_⟩ h8 ?_ ?_
          · obtain ⟨_, hr⟩ := hr
            have hadd : ClaimIn n add (fun a' p' => if a' = a ∧ p' = q then some (now + conf.nftTimeout) else g a' p') := by
              intro c hc
              obtain ⟨q', hq', rfl⟩ := ha3 c hc
              exact ⟨a, q, now + conf.nftTimeout, q', by simp, hq', hsup, rfl⟩
            cases phase with
            | running =>
              obtain ⟨g', h1, h2, h3, h4, h9⟩ := hr
              injection h1 with h1
              subst h1
              exact ⟨_, rfl, h5, h6, h4.renewed h7, by show (cl ++ add).Perm (leaseAll n fw'.leases); rw [ha2]; exact h9.append_right _⟩
            | stopping =>
              obtain ⟨g', h1, h2, h3, h4⟩ := hr
              injection h1 with h1
              subst h1
              refine ⟨_, rfl, h5, h6, ?_⟩
              intro c hc
              rcases List.mem_append.1 hc with hc | hc
              · exact reply_granted_claim h4 c hc
              · exact hadd c hc
            | stopped => cases hal
            | crashed => cases hal
          · intro c hc
            rw [ha1] at hc
            rcases List.mem_append.1 hc with hc | hc
            · exact .inl hc
            · obtain ⟨q', _, hq'⟩ := ha3 c hc
              exact .inr (.inr ⟨a, q', hq'⟩)
          · intro a' q'
            right
            rw [ha1, List.count_append, List.count_append]
            omega
      | maintain now env =>
        obtain ⟨hu, hu'⟩ := hfair
        cases phase with
        | stopped => cases hal
        | crashed => cases hal
        | stopping =>
          simp only [hostStep, hp, fwdStep, FwInstance.state, tablesStep, hself, ht]
          refine ⟨cls, ?_⟩
          rw [if_neg (by simp)]
          exact hi.touch hp hcl ht rfl hr hi.ok rfl
        | running =>
          obtain ⟨r, k', he, hk', hcases⟩ := maintain_shaped hn hl hi.ok hi.shaped hs now env hu hu'
          obtain ⟨g', h1, h2, h3, h4, h5⟩ := hr.2
          injection h1 with h1
          subst h1
          have htable : TableOf (fw.leases.filter (fun e => !e.2.isTimedOut now)) (g.step conf.nftTimeout (.maintain now env) none) := by
            simp only [Grants.step, granted]
            intro a p e
            have hg := h4 a p
            dsimp only
            constructor
            · intro hx
              split at hx
              · rename_i e' he'
                split at hx
                · rename_i hlt
                  injection hx with hx
                  subst hx
                  obtain ⟨l, hm, htm⟩ := (hg e').1 he'
                  refine ⟨l, List.mem_filter.2 ⟨hm, ?_⟩, htm⟩
                  simp only [Lease.isTimedOut, htm]
                  simpa using hlt
                · cases hx
              · cases hx
            · rintro ⟨l, hm, htm⟩
              obtain ⟨hm, hto⟩ := List.mem_filter.1 hm
              have := (hg e).2 ⟨l, hm, htm⟩
              rw [this]
              have hlt : now < e := by simpa [Lease.isTimedOut, htm] using hto
              simp [hlt]
          have hsplit : (leaseAll n fw.leases).Perm (leaseAll n (fw.leases.filter (fun e => e.2.isTimedOut now)) ++
              leaseAll n (fw.leases.filter (fun e => !e.2.isTimedOut now))) := by
            have := List.Perm.flatMap_right (fun e : LeaseId × Lease => leaseContents n.family e.2)
              (perm_filter_partition (fun e : LeaseId × Lease => e.2.isTimedOut now) fw.leases)
            simpa [leaseAll, List.flatMap_append] using this
          have hrun : RunOk n ⟨conf, .running, { fw with leases := fw.leases.filter (fun e => !e.2.isTimedOut now) }⟩
              (leaseAll n (fw.leases.filter (fun e => !e.2.isTimedOut now))) (some (g.step conf.nftTimeout (.maintain now env) none)) :=
            ⟨hn, _, rfl, hl.filter _, hs, htable, List.Perm.refl _⟩
          rcases hcases with ⟨rfl, hown⟩ | ⟨rfl, hown⟩ | ⟨rfl, hown⟩
          · simp only [hostStep, hp, fwdStep, FwInstance.state, he, tablesStep, hself, ht]
            refine ⟨cls, ?_⟩
            rw [if_neg (by simp)]
            refine hi.touch hp hcl ht rfl ⟨hn, ?_⟩ hk' hown
            exact ⟨g, rfl, hl.filter _, hs, hr.claim⟩
          · simp only [hostStep, hp, fwdStep, FwInstance.state, he, tablesStep, hself, ht, if_true]
            refine ⟨_, hi.change hp hcl ht rfl hrun hk' ?_ ?_⟩
            · intro c hc
              rcases List.mem_append.1 (hown.subset hc) with hc | hc
              · exact .inr (.inl hc)
              · obtain ⟨e, _, hc⟩ := List.mem_flatMap.1 hc
                obtain ⟨q, _, hq⟩ := List.mem_map.1 hc
                exact .inr (.inr ⟨_, q, hq.symm⟩)
            · intro a q
              left
              rw [hown.count_eq, wanted, List.count_append, List.count_eq_zero_of_not_mem (l := ctrlContents conf), Nat.zero_add]
              · exact Nat.le_refl _
              · intro hm
                obtain ⟨q', hq'⟩ := ctrlContents_shape hm
                exact ctrl_ne_lease _ _ _ _ hq'.symm
          · simp only [hostStep, hp, fwdStep, FwInstance.state, he, tablesStep, hself, ht, if_true]
            refine ⟨_, hi.change hp hcl ht rfl hrun hk' ?_ ?_⟩
            · intro c hc
              exact .inl (hown.symm.subset (List.mem_append_right _ hc))
            · intro a q
              right
              have e1 := hown.count_eq (leaseContent n.family a q)
              have e2 := (h5.trans hsplit).count_eq (leaseContent n.family a q)
              rw [List.count_append] at e1 e2
              omega
    · exact dead (by simpa using hal)

/-- The invariant, from an arbitrary ruleset on. -/
theorem hostStep_inv {n : NftNames} {h : FwHost} {ts : List (Option Grants)} {cls : List (List Content)} (e : HostEvent)
    (hi : (h.procs = [] ∧ ts = [] ∧ cls = []) ∨ HostInv n h ts cls) (hf : HostEventFair n h e) (hn : ∀ conf ok, e = .start conf ok → ChainOf conf n) :
    ∃ cls', ((hostStep h e).2.procs = [] ∧ tablesStep h ts e (hostStep h e).1 (hostStep h e).2 = [] ∧ cls' = []) ∨
      HostInv n (hostStep h e).2 (tablesStep h ts e (hostStep h e).1 (hostStep h e).2) cls' := by
  cases e with
  | start conf ok =>
    have hn := hn conf ok rfl
    rcases start_cases hn h.kernel ok with ⟨s, h1, h2, h3, h4⟩ | ⟨h1, h2⟩
    · obtain ⟨cls', h5⟩ := hostStart_inv hn hi h3 h4
      simp only [hostStep, h1, h2, tablesStep]
      exact ⟨cls', .inr h5⟩
    · simp only [hostStep, h1, h2, tablesStep]
      exact ⟨cls, hi⟩
  | act i op =>
    rcases hi with ⟨h1, h2, h3⟩ | hi
    · exact ⟨[], .inl (by simp [hostStep, h1, h2, tablesStep])⟩
    · obtain ⟨cls', h5⟩ := hostAct_inv hi i op hf
      exact ⟨cls', .inr h5⟩
  | kill i =>
    rcases hi with ⟨h1, h2, h3⟩ | hi
    · exact ⟨[], .inl (by simp [hostStep, h1, h2, tablesStep])⟩
    · refine ⟨cls, .inr ?_⟩
      cases hp : h.procs[i]? with
      | none => simp only [hostStep, hp, tablesStep]; exact hi
      | some p =>
        have hlp : i < h.procs.length := (List.getElem?_eq_some_iff.1 hp).1
        obtain ⟨t, ht⟩ : ∃ t, ts[i]? = some t := ⟨_, List.getElem?_eq_getElem (by rw [hi.lenT]; exact hlp)⟩
        obtain ⟨cl, hcl⟩ : ∃ cl, cls[i]? = some cl := ⟨_, List.getElem?_eq_getElem (by rw [hi.lenC]; exact hlp)⟩
        simp only [hostStep, hp, tablesStep]
        exact hi.touch hp hcl ht rfl ((hi.runs i p cl t hp hcl ht).dead rfl rfl) hi.ok rfl
  | others k =>
    refine ⟨cls, ?_⟩
    rcases hi with ⟨h1, h2, h3⟩ | hi
    · exact .inl ⟨h1, h2, h3⟩
    · have hf : OwnUnchanged n h.kernel k := hf
      exact .inr (hi.unchanged (hi.ok.of_unchanged hf) hf.own)

theorem hostRun_inv {n : NftNames} (evs : List HostEvent) {h : FwHost} {ts : List (Option Grants)} {cls : List (List Content)}
    (hi : (h.procs = [] ∧ ts = [] ∧ cls = []) ∨ HostInv n h ts cls) (hf : HostFair n h evs) (hn : SameChain n evs) :
    ∃ cls', ((hostRun h evs).procs = [] ∧ tables h ts evs = [] ∧ cls' = []) ∨ HostInv n (hostRun h evs) (tables h ts evs) cls' := by
  induction evs generalizing h ts cls with
  | nil => exact ⟨cls, hi⟩
  | cons e rest ih =>
    obtain ⟨cls', h1⟩ := hostStep_inv e hi hf.1 (fun conf ok he => hn conf ok (by rw [he]; simp))
    exact ih h1 hf.2 (fun conf ok hm => hn conf ok (List.mem_cons_of_mem _ hm))

end Letmein
