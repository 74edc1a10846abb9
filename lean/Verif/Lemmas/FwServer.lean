import Verif.Lemmas.Firewall

/-!
# Lemmas about the firewall daemon
-/

namespace Letmein
open Spec

/-! ### The chain's invariant -/

/-- What always holds of the lease map. -/
structure LeasesOk (n : NftNames) (leases : LeaseMap) : Prop where
  keys : ∀ e ∈ leases, e.1 = (e.2.addr, e.2.port)
  nodup : (leases.map (·.1)).Nodup
  supp : ∀ e ∈ leases, Supported n.family e.2.addr

/-- Contents of all rules there should be. -/
def wanted (conf : Config) (n : NftNames) (leases : LeaseMap) : List Content :=
  ctrlContents conf ++ leases.flatMap (fun e => leaseContents n.family e.2)

/-- The chain holds exactly what it should. -/
structure ChainOk (conf : Config) (n : NftNames) (leases : LeaseMap) (k : Kernel) : Prop where
  rules : (ownContents n k).Perm (wanted conf n leases)
  ok : KernelOk n k

theorem LeasesOk.perm {n : NftNames} {l l' : LeaseMap} (h : LeasesOk n l) (p : l'.Perm l) : LeasesOk n l' :=
  ⟨fun e he => h.keys e (p.subset he), (p.map _).nodup_iff.2 h.nodup, fun e he => h.supp e (p.subset he)⟩

theorem LeasesOk.filter {n : NftNames} {l : LeaseMap} (h : LeasesOk n l) (f : LeaseId × Lease → Bool) :
    LeasesOk n (l.filter f) :=
  ⟨fun e he => h.keys e (List.mem_filter.1 he).1, List.Nodup.sublist (List.Sublist.map _ List.filter_sublist) h.nodup,
    fun e he => h.supp e (List.mem_filter.1 he).1⟩

theorem wanted_perm {conf : Config} {n : NftNames} {l l' : LeaseMap} (p : l'.Perm l) :
    (wanted conf n l').Perm (wanted conf n l) := (List.Perm.flatMap_right _ p).append_left _

theorem ChainOk.perm {conf : Config} {n : NftNames} {l l' : LeaseMap} {k : Kernel} (h : ChainOk conf n l k) (p : l'.Perm l) :
    ChainOk conf n l' k := ⟨h.rules.trans (wanted_perm p).symm, h.ok⟩

theorem ChainOk.unchanged {conf : Config} {n : NftNames} {l : LeaseMap} {k k' : Kernel} (h : ChainOk conf n l k)
    (u : OwnUnchanged n k k') : ChainOk conf n l k' :=
  ⟨by rw [ownContents, u.own]; exact h.rules, h.ok.of_unchanged u⟩

/-! ### Rebuild -/

theorem fullRebuild_cases {conf : Config} {n : NftNames} (hn : ChainOf conf n) {fw : NftFirewall}
    (hs : ∀ e ∈ fw.leases, Supported n.family e.2.addr) (hd : fw.shutdown = false) (k : Kernel) (ok : Bool) :
    (ok = true ∧ (fullRebuild conf fw k ok).1 = .ok () ∧ ChainOk conf n fw.leases (fullRebuild conf fw k ok).2 ∧
      foreignRules n (fullRebuild conf fw k ok).2 = foreignRules n k) ∨ fullRebuild conf fw k ok = (.err, k) := by
  unfold fullRebuild
  rw [rebuildCmds_ok hn hs hd]
  obtain ⟨k', h1, h2, h3, h4⟩ := rebuild_apply (n := n) k (ctrlContents conf ++ fw.leases.flatMap (fun e => leaseContents n.family e.2))
  simp only [applyBatch, h1]
  cases ok with
  | true => exact .inl ⟨rfl, rfl, ⟨by show (ownContents n k').Perm _; rw [h2]; exact List.Perm.refl _, h4⟩, h3⟩
  | false => exact .inr rfl

theorem fullRebuild_shutdown {conf : Config} {n : NftNames} (hn : ChainOf conf n) {fw : NftFirewall}
    (hd : fw.shutdown = true) (k : Kernel) (ok : Bool) :
    fullRebuild conf fw k ok = if ok then (.ok (), flushed n k) else (.err, k) := by
  unfold fullRebuild
  rw [rebuildCmds_shutdown hn hd]
  cases ok <;> simp [applyBatch, applyCmds, applyCmd, flushed]

/-! ### Opening -/

/-- `leases'` is `leases` with the lease of `id` set to expire at `e`. -/
def Renewed (leases leases' : LeaseMap) (id : LeaseId) (e : Nat) : Prop :=
  ∀ id' e', (∃ l, (id', l) ∈ leases' ∧ l.timeout = e') ↔
    (if id' = id then e' = e else ∃ l, (id', l) ∈ leases ∧ l.timeout = e')

theorem LeasesOk.update {n : NftNames} {l : LeaseMap} (h : LeasesOk n l) (id : LeaseId) (conf : Config) (now : Nat) :
    LeasesOk n (leaseUpdate l id (fun x => x.refreshTimeout conf now)) ∧
    wanted conf n (leaseUpdate l id (fun x => x.refreshTimeout conf now)) = wanted conf n l := by
  refine ⟨⟨?_, ?_, ?_⟩, ?_⟩
  · intro e he
    obtain ⟨e', he', rfl⟩ := List.mem_map.1 he
    have := h.keys e' he'
    split <;> exact this
  · have : (leaseUpdate l id (fun x => x.refreshTimeout conf now)).map (·.1) = l.map (·.1) := by
      rw [leaseUpdate, List.map_map]
      apply List.map_congr_left
      intro e _
      simp only [Function.comp]
      split <;> rfl
    rw [this]
    exact h.nodup
  · intro e he
    obtain ⟨e', he', rfl⟩ := List.mem_map.1 he
    have := h.supp e' he'
    split <;> exact this
  · simp only [wanted, leaseUpdate, List.flatMap_map]
    congr 2
    funext e
    split <;> rfl

theorem openPort_cases {conf : Config} {n : NftNames} (hn : ChainOf conf n) {fw : NftFirewall} {k : Kernel}
    (hl : LeasesOk n fw.leases) (hc : KernelOk n k) (hd : fw.shutdown = false) (now : Nat) (addr : IpAddr) (port : LeasePort) (ok : Bool)
    (hp : conf.port.port ≠ port.port) :
    (∃ fw' k', fw.openPort conf k now addr port ok = (.ok (), fw', k') ∧ LeasesOk n fw'.leases ∧ fw'.shutdown = false ∧
      Renewed fw.leases fw'.leases (addr, port) (now + conf.nftTimeout) ∧ foreignRules n k' = foreignRules n k ∧
      KernelOk n k' ∧ Supported n.family addr ∧
      (∀ want, (ownContents n k).Perm (wanted conf n fw.leases ++ want) → (ownContents n k').Perm (wanted conf n fw'.leases ++ want)) ∧
      ((∃ l, ((addr, port), l) ∈ fw.leases) → k' = k) ∧
      (∀ c ∈ ownContents n k', c ∈ ownContents n k ∨ c ∈ leaseContents n.family ⟨addr, port, 0⟩)) ∨
    (fw.openPort conf k now addr port ok = (.err, fw, k) ∧ (¬ ∃ l, ((addr, port), l) ∈ fw.leases) ∧
      (ok = false ∨ ¬ Supported n.family addr)) := by
  unfold NftFirewall.openPort
  rw [if_neg (by simp [hd])]
  simp only
  by_cases hex : fw.leases.any (fun e => decide (e.1 = (addr, port))) = true
  · left
    rw [if_pos hex]
    obtain ⟨e0, he0, heq⟩ := List.any_eq_true.1 hex
    simp at heq
    obtain ⟨h1, h2⟩ := hl.update (addr, port) conf now
    refine ⟨_, _, rfl, h1, hd, ?_, rfl, hc, ?_, ?_, fun _ => rfl, fun c hc => .inl hc⟩
    · intro id' e'
      constructor
      · rintro ⟨l, hmem, ht⟩
        obtain ⟨e1, he1, h3⟩ := List.mem_map.1 hmem
        by_cases hid : e1.1 = (addr, port)
        · rw [if_pos hid] at h3
          injection h3 with h3 h4
          rw [if_pos (by rw [← h3, hid])]
          rw [← ht, ← h4]
          rfl
        · rw [if_neg hid] at h3
          rw [if_neg (by rw [h3] at hid; exact hid)]
          exact ⟨l, h3 ▸ he1, ht⟩
      · split
        · rename_i hid
          intro he
          refine ⟨e0.2.refreshTimeout conf now, List.mem_map.2 ⟨e0, he0, ?_⟩, ?_⟩
          · rw [if_pos heq, heq, hid]
          · rw [he]; rfl
        · rename_i hid
          rintro ⟨l, hmem, ht⟩
          exact ⟨l, List.mem_map.2 ⟨_, hmem, by rw [if_neg hid]⟩, ht⟩
    · have := hl.supp e0 he0
      rw [show e0.2.addr = addr from by have := hl.keys e0 he0; rw [heq] at this; injection this with h3 _; exact h3.symm] at this
      exact this
    · intro want hw
      rw [h2]
      exact hw
  · rw [if_neg hex]
    have hnot : ¬ ∃ l, ((addr, port), l) ∈ fw.leases := by
      rintro ⟨l, hm⟩
      exact hex (List.any_eq_true.2 ⟨_, hm, by simp⟩)
    have hnew : Lease.new conf now addr port = .ok { addr, port, timeout := now + conf.nftTimeout } := by
      simp [Lease.new, rassert, hp]
    rw [hnew]
    simp only [addLease]
    by_cases hs : Supported n.family addr
    · rw [genAddLeaseCmds_ok hn (by exact hs)]
      obtain ⟨k', h1, h2, h3, h4⟩ := applyCmds_adds
        (leaseContents n.family { addr, port, timeout := now + conf.nftTimeout }) hc
      cases ok with
      | false => exact .inr ⟨by simp [applyBatch], hnot, .inl rfl⟩
      | true =>
        left
        refine ⟨{ fw with leases := fw.leases ++ [((addr, port), { addr, port, timeout := now + conf.nftTimeout })] }, k',
          by simp [applyBatch, h1], ?_, hd, ?_, h3, h4, hs, ?_, fun hx => absurd hx hnot,
          fun c hc => by rw [h2] at hc; exact List.mem_append.1 hc⟩
        · refine ⟨?_, ?_, ?_⟩
          · intro e he
            simp only [List.mem_append, List.mem_singleton] at he
            rcases he with he | rfl
            · exact hl.keys e he
            · rfl
          · rw [List.map_append, List.nodup_append]
            refine ⟨hl.nodup, by simp, ?_⟩
            intro a ha b hb
            simp at hb
            subst hb
            obtain ⟨e, he, rfl⟩ := List.mem_map.1 ha
            intro heq
            exact hnot ⟨e.2, by rw [← heq]; exact he⟩
          · intro e he
            simp only [List.mem_append, List.mem_singleton] at he
            rcases he with he | rfl
            · exact hl.supp e he
            · exact hs
        · intro id' e'
          constructor
          · rintro ⟨l, hmem, ht⟩
            simp only [List.mem_append, List.mem_singleton, Prod.mk.injEq] at hmem
            rcases hmem with hmem | ⟨rfl, rfl⟩
            · split
              · rename_i hid; subst hid; exact absurd ⟨l, hmem⟩ hnot
              · exact ⟨l, hmem, ht⟩
            · simp at ht ⊢; exact ht.symm
          · split
            · rename_i hid
              intro he
              exact ⟨{ addr, port, timeout := now + conf.nftTimeout }, by simp [hid], he.symm⟩
            · rintro ⟨l, hmem, ht⟩
              exact ⟨l, by simp [hmem], ht⟩
        · intro want hw
          rw [h2]
          simp only [wanted, List.flatMap_append, List.flatMap_cons, List.flatMap_nil, List.append_nil]
          simp only [wanted] at hw
          refine (hw.append_right _).trans ?_
          rw [List.append_assoc, List.append_assoc, List.append_assoc, List.append_assoc]
          refine List.Perm.append_left _ (List.Perm.append_left _ ?_)
          exact List.perm_append_comm
    · rw [genAddLeaseCmds_err hn (by exact hs)]
      exact .inr ⟨rfl, hnot, .inr hs⟩

/-! ### Maintenance -/

theorem findHandle_spec {rules : List KRule} {n : NftNames} {a : IpAddr} {p : SinglePort} {h : Nat}
    (hf : findHandle rules n a p = .ok h) :
    ∃ r ∈ rules, r.inChain n.family n.table n.chainInput = true ∧ r.comment = some (genRuleComment (some a) p) ∧ r.handle = h := by
  unfold findHandle at hf
  split at hf
  · rename_i r hr
    have hm := List.mem_of_find?_eq_some hr
    have hp := List.find?_some hr
    simp only [Bool.and_eq_true, decide_eq_true_eq] at hp
    injection hf with hf
    exact ⟨r, hm, hp.1, hp.2, hf⟩
  · cases hf

theorem findHandle_not_panic (rules : List KRule) (n : NftNames) (a : IpAddr) (p : SinglePort) :
    findHandle rules n a p ≠ .panic := by
  unfold findHandle
  split <;> simp

theorem genDelete_not_panic (conf : Config) (rules : List KRule) (l : Lease) : genDeleteLeaseCmds conf rules l ≠ .panic := by
  unfold genDeleteLeaseCmds
  cases hg : NftNames.get conf with
  | ok n =>
    simp only [R.bind_ok]
    apply collect_not_panic
    intro p _
    cases hf : findHandle rules n l.addr p with
    | ok h => simp
    | err => simp
    | panic => exact absurd hf (findHandle_not_panic _ _ _ _)
  | err => simp
  | panic => exact absurd hg (names_get_not_panic _)

/-- The deletion commands of one lease. -/
theorem genDelete_spec {conf : Config} {n : NftNames} (hn : ChainOf conf n) {k : Kernel} {l : Lease} {cmds : List NfCmd}
    (h : genDeleteLeaseCmds conf k.rules l = .ok cmds) :
    ∃ rs : List KRule, cmds = rs.map (delCmd n) ∧ (∀ r ∈ rs, r ∈ ownRules n k) ∧
      rs.map (·.comment) = l.port.singles.map (fun p => some (genRuleComment (some l.addr) p)) := by
  unfold genDeleteLeaseCmds at h
  rw [names_get_iff.2 hn, R.bind_ok] at h
  generalize l.port.singles = ps at h
  induction ps generalizing cmds with
  | nil => simp [collect] at h; subst h; exact ⟨[], by simp, by simp, by simp⟩
  | cons p ps ih =>
    rw [collect] at h
    cases hf : findHandle k.rules n l.addr p with
    | ok hd =>
      rw [hf] at h
      simp only [R.bind_ok] at h
      cases hc : collect (fun p => do
          let h ← findHandle k.rules n l.addr p
          R.ok (NfCmd.delete n.family n.table n.chainInput h)) ps with
      | ok cs =>
        rw [hc] at h
        simp only [R.bind_ok, R.ok.injEq] at h
        obtain ⟨rs, h1, h2, h3⟩ := ih hc
        obtain ⟨r, hr1, hr2, hr3, hr4⟩ := findHandle_spec hf
        refine ⟨r :: rs, ?_, ?_, ?_⟩
        · rw [← h, h1]; simp [delCmd, hr4]
        · intro x hx
          rcases List.mem_cons.1 hx with rfl | hx
          · exact List.mem_filter.2 ⟨hr1, (own_iff n x).trans hr2⟩
          · exact h2 x hx
        · simp [hr3, h3]
      | err => rw [hc] at h; simp at h
      | panic => rw [hc] at h; simp at h
    | err => rw [hf] at h; simp at h
    | panic => rw [hf] at h; simp at h

theorem genDeletes_spec {conf : Config} {n : NftNames} (hn : ChainOf conf n) {k : Kernel} {ls : List Lease}
    {cmds : List (List NfCmd)} (h : collect (genDeleteLeaseCmds conf k.rules) ls = .ok cmds) :
    ∃ rs : List KRule, cmds.flatten = rs.map (delCmd n) ∧ (∀ r ∈ rs, r ∈ ownRules n k) ∧
      rs.map (·.comment) = ls.flatMap (fun l => l.port.singles.map (fun p => some (genRuleComment (some l.addr) p))) := by
  induction ls generalizing cmds with
  | nil => simp [collect] at h; subst h; exact ⟨[], by simp, by simp, by simp⟩
  | cons l ls ih =>
    rw [collect] at h
    cases hf : genDeleteLeaseCmds conf k.rules l with
    | ok c =>
      rw [hf, R.bind_ok] at h
      cases hc : collect (genDeleteLeaseCmds conf k.rules) ls with
      | ok cs =>
        rw [hc] at h
        simp only [R.bind_ok, R.ok.injEq] at h
        obtain ⟨rs, h1, h2, h3⟩ := ih hc
        obtain ⟨rs', h1', h2', h3'⟩ := genDelete_spec hn hf
        refine ⟨rs' ++ rs, ?_, ?_, ?_⟩
        · rw [← h]; simp [h1, h1']
        · intro x hx
          rcases List.mem_append.1 hx with hx | hx
          · exact h2' x hx
          · exact h2 x hx
        · simp [h3, h3']
      | err => rw [hc] at h; simp at h
      | panic => rw [hc] at h; simp at h
    | err => rw [hf] at h; simp at h
    | panic => rw [hf] at h; simp at h

/-- Rules with the comment of a lease have the content of that lease's rule. -/
theorem content_of_comment {conf : Config} {n : NftNames} {leases : LeaseMap} {k : Kernel} (hc : ChainOk conf n leases k)
    {r : KRule} (hr : r ∈ ownRules n k) {a : IpAddr} {p : SinglePort} (h : r.comment = some (genRuleComment (some a) p)) :
    r.content = leaseContent n.family a p := by
  have hm : r.content ∈ wanted conf n leases := hc.rules.subset (List.mem_map_of_mem hr)
  have hcase : (∃ q, r.content = ctrlContent q) ∨ ∃ b q, r.content = leaseContent n.family b q := by
    rcases List.mem_append.1 hm with hm | hm
    · left
      unfold ctrlContents at hm
      rcases List.mem_append.1 hm with hm | hm <;> split at hm <;> simp at hm <;> exact ⟨_, hm⟩
    · right
      obtain ⟨e, _, he⟩ := List.mem_flatMap.1 hm
      obtain ⟨q, _, hq⟩ := List.mem_map.1 he
      exact ⟨_, q, hq.symm⟩
  rcases hcase with ⟨q, hq⟩ | ⟨b, q, hq⟩
  · have h2 : r.comment = some (genRuleComment none q) := congrArg Prod.fst hq
    rw [h] at h2
    have := (genRuleComment_inj (Option.some.inj h2)).1
    cases this
  · have h2 : r.comment = some (genRuleComment (some b) q) := congrArg Prod.fst hq
    rw [h] at h2
    obtain ⟨h3, h4⟩ := genRuleComment_inj (Option.some.inj h2)
    injection h3 with h3
    rw [hq, h3, h4]

theorem contents_of_comments {conf : Config} {n : NftNames} {leases : LeaseMap} {k : Kernel} (hc : ChainOk conf n leases k)
    {rs : List KRule} (hr : ∀ r ∈ rs, r ∈ ownRules n k) {qs : List (IpAddr × SinglePort)}
    (h : rs.map (·.comment) = qs.map (fun q => some (genRuleComment (some q.1) q.2))) :
    rs.map KRule.content = qs.map (fun q => leaseContent n.family q.1 q.2) := by
  induction rs generalizing qs with
  | nil => cases qs with
    | nil => rfl
    | cons => simp at h
  | cons r rs ih =>
    cases qs with
    | nil => simp at h
    | cons q qs =>
      simp only [List.map_cons, List.cons.injEq] at h ⊢
      exact ⟨content_of_comment hc (hr r (by simp)) h.1, ih (fun x hx => hr x (by simp [hx])) h.2⟩

theorem perm_filter_partition {α : Type} (f : α → Bool) (l : List α) :
    l.Perm (l.filter f ++ l.filter (fun x => !f x)) := by
  induction l with
  | nil => simp
  | cons x l ih =>
    by_cases h : f x = true
    · rw [List.filter_cons_of_pos h, List.filter_cons_of_neg (by simp [h])]
      exact ih.cons x
    · rw [List.filter_cons_of_neg h, List.filter_cons_of_pos (by simp [h])]
      exact (ih.cons x).trans List.perm_middle.symm

/-- Removing expired leases from the kernel. -/
theorem removeLeases_cases {conf : Config} {n : NftNames} (hn : ChainOf conf n) {leases : LeaseMap} {k : Kernel}
    (hc : ChainOk conf n leases k) (f : LeaseId × Lease → Bool) (env : NftEnv) (hu : ∀ k, OwnUnchanged n k (env.afterList k)) :
    (∃ k', removeLeases conf ((leases.filter f).map (·.2)) k env = (.ok (), k') ∧ ChainOk conf n (leases.filter (fun e => !f e)) k') ∨
    (∃ k', removeLeases conf ((leases.filter f).map (·.2)) k env = (.err, k') ∧ KernelOk n k' ∧ ownRules n k' = ownRules n k) := by
  unfold removeLeases
  split
  · rename_i hempty
    left
    have he : leases.filter f = [] := by simpa using hempty
    refine ⟨k, rfl, ?_⟩
    have : leases.Perm (leases.filter (fun e => !f e)) := by
      have := perm_filter_partition f leases
      rwa [he, List.nil_append] at this
    exact hc.perm this.symm
  · split
    · exact .inr ⟨_, rfl, hc.ok, rfl⟩
    · simp only
      cases hcol : collect (genDeleteLeaseCmds conf k.rules) ((leases.filter f).map (·.2)) with
      | err => exact .inr ⟨_, rfl, hc.ok.of_unchanged (hu k), (hu k).own⟩
      | panic => exact absurd hcol (collect_not_panic (fun l _ => genDelete_not_panic conf k.rules l))
      | ok cmds =>
        simp only
        obtain ⟨rs, h1, h2, h3⟩ := genDeletes_spec hn hcol
        rcases applyBatch_cases (env.afterList k) cmds.flatten env.deleteOk with ⟨k', ha, _, hb⟩ | hb
        · left
          refine ⟨k', hb, ?_⟩
          rw [h1] at ha
          have hu := hu k
          obtain ⟨hp, _, hk'⟩ := applyCmds_deletes (base := ownRules n k) hc.ok.nodup h2
            (fun r hr => by rwa [hu.own] at hr) (hc.ok.of_unchanged hu) ha
          rw [hu.own] at hp
          refine ⟨?_, hk'⟩
          have hcont := contents_of_comments hc h2
            (qs := (leases.filter f).flatMap (fun e => e.2.port.singles.map (fun p => (e.2.addr, p))))
            (by rw [h3]; simp [List.flatMap_map, List.map_flatMap, Function.comp_def])
          have hp2 := hp.map KRule.content
          rw [List.map_append, hcont] at hp2
          have hlease : ((leases.filter f).flatMap (fun e => e.2.port.singles.map (fun p => (e.2.addr, p)))).map
              (fun q => leaseContent n.family q.1 q.2) = (leases.filter f).flatMap (fun e => leaseContents n.family e.2) := by
            simp [List.map_flatMap, leaseContents, Function.comp_def]
          rw [hlease] at hp2
          have hall : (wanted conf n leases).Perm ((leases.filter f).flatMap (fun e => leaseContents n.family e.2) ++
              wanted conf n (leases.filter (fun e => !f e))) := by
            refine (wanted_perm (perm_filter_partition f leases).symm).symm.trans ?_
            simp only [wanted, List.flatMap_append]
            rw [← List.append_assoc, ← List.append_assoc]
            exact List.perm_append_comm.append_right _
          exact (List.perm_append_left_iff _).1 (hp2.symm.trans (hc.rules.trans hall))
        · exact .inr ⟨_, hb, hc.ok.of_unchanged (hu k), (hu k).own⟩

theorem maintain_cases {conf : Config} {n : NftNames} (hn : ChainOf conf n) {fw : NftFirewall} {k : Kernel}
    (hl : LeasesOk n fw.leases) (hc : ChainOk conf n fw.leases k) (hd : fw.shutdown = false) (now : Nat) (env : NftEnv)
    (hu : ∀ k, OwnUnchanged n k (env.afterList k)) (hu' : ∀ k, OwnUnchanged n k (env.beforeRebuild k)) :
    ∃ r k', fw.maintain conf k now env = (r, { fw with leases := fw.leases.filter (fun e => !e.2.isTimedOut now) }, k') ∧
      ((r = .err ∧ KernelOk n k' ∧ ownRules n k' = ownRules n k) ∨ (r = .ok () ∧ ChainOk conf n (fw.leases.filter (fun e => !e.2.isTimedOut now)) k')) := by
  unfold NftFirewall.maintain
  rw [if_neg (by simp [hd])]
  by_cases he : (pruneAllLeaseTimeouts now fw.leases).2.isEmpty = true
  · simp only [he, if_true]
    refine ⟨_, _, rfl, .inr ⟨rfl, ?_⟩⟩
    have he : fw.leases.filter (fun e => e.2.isTimedOut now) = [] := by simpa [pruneAllLeaseTimeouts] using he
    have := perm_filter_partition (fun e : LeaseId × Lease => e.2.isTimedOut now) fw.leases
    rw [he, List.nil_append] at this
    exact hc.perm this.symm
  · simp only [he, if_false, Bool.false_eq_true]
    rcases removeLeases_cases hn hc (fun e => e.2.isTimedOut now) env hu with ⟨k', h1, h2⟩ | ⟨k', h1, h2, h5⟩
    · have h1 : removeLeases conf (pruneAllLeaseTimeouts now fw.leases).2 k env = _ := h1
      rw [h1]
      exact ⟨_, _, rfl, .inr ⟨rfl, h2⟩⟩
    · have h1 : removeLeases conf (pruneAllLeaseTimeouts now fw.leases).2 k env = _ := h1
      rw [h1]
      simp only
      refine ⟨_, _, rfl, ?_⟩
      rcases fullRebuild_cases hn (fw := { fw with leases := fw.leases.filter (fun e => !e.2.isTimedOut now) })
        (hl.filter _).supp hd (env.beforeRebuild k') env.rebuildOk with ⟨_, h3, h4, _⟩ | h3
      · exact .inr ⟨h3, h4⟩
      · have h3 : fullRebuild conf { fw with leases := (pruneAllLeaseTimeouts now fw.leases).1 } (env.beforeRebuild k')
          env.rebuildOk = _ := h3
        exact .inl (by rw [h3]; exact ⟨rfl, h2.of_unchanged (hu' k'), (hu' k').own.trans h5⟩)

/-! ### Requests -/

theorem fwdDecide_open {conf : Config} {rx : FwRecvOut} {a : IpAddr} {p : LeasePort} (h : fwdDecide conf rx = .openPort a p) :
    ∃ m t port, rx = .msg m ∧ m.operation = .Open ∧ m.getAddr = some a ∧ m.getPort = some (t, port) ∧ p = selection t port ∧
      addrCheck a = true ∧ (conf.resourceIdByPort port none).isSome = true ∧ port ≠ conf.port.port := by
  unfold fwdDecide at h
  split at h
  · cases h
  · cases h
  · rename_i m
    split at h
    · rename_i hop
      split at h
      · cases h
      · rename_i addr ha
        split at h
        · cases h
        · rename_i hc
          split at h
          · cases h
          · rename_i t port hp
            split at h
            · cases h
            · rename_i hr
              split at h
              · cases h
              · rename_i hne
                have : ∃ h' : addr = a, p = selection t port := by
                  cases t <;> simp only [FwdDecision.openPort.injEq] at h <;> exact ⟨h.1, h.2.symm⟩
                obtain ⟨rfl, hsel⟩ := this
                refine ⟨m, t, port, rfl, hop, ha, hp, hsel, by simpa using hc, ?_, hne⟩
                cases hx : conf.resourceIdByPort port none with
                | none => rw [hx] at hr; simp at hr
                | some => rfl
    · cases h
    · cases h

theorem selection_port (t : PortType) (port : UInt16) : (selection t port).port = port := by cases t <;> rfl

/-- The lease map holds exactly the granted entries. -/
def TableOf (leases : LeaseMap) (g : Grants) : Prop :=
  ∀ a p e, g a p = some e ↔ ∃ l, ((a, p), l) ∈ leases ∧ l.timeout = e

/-- What holds of the daemon between two operations. -/
def FwdInv (conf : Config) (n : NftNames) (s : FwdState) (g : Grants) : Prop :=
  match s.phase with
  | .running => LeasesOk n s.fw.leases ∧ s.fw.shutdown = false ∧ ChainOk conf n s.fw.leases s.kernel ∧ TableOf s.fw.leases g
  | .stopping => LeasesOk n s.fw.leases ∧ s.fw.shutdown = false ∧ KernelOk n s.kernel
  | .stopped => s.fw.shutdown = true
  | .crashed => False

/-- A request in a state that has not been shut down. -/
theorem request_cases {conf : Config} {n : NftNames} (hn : ChainOf conf n) {fw : NftFirewall} {k : Kernel}
    (hl : LeasesOk n fw.leases) (hc : KernelOk n k) (hd : fw.shutdown = false) (rx : FwRecvOut) (now : Nat) (ok : Bool) :
    (∃ r reply, handleMessage conf fw k rx now ok = (r, reply, fw, k) ∧ r ≠ .panic ∧
      granted (.request rx now ok) reply = none ∧ (∀ m, reply = some m → m.operation = .Nack)) ∨
    (∃ a p fw' k', fwdDecide conf rx = .openPort a p ∧ handleMessage conf fw k rx now ok = (.ok (), some FwMessage.newAck, fw', k') ∧
      granted (.request rx now ok) (some FwMessage.newAck) = some (a, p, now) ∧ LeasesOk n fw'.leases ∧ fw'.shutdown = false ∧
      Renewed fw.leases fw'.leases (a, p) (now + conf.nftTimeout) ∧ KernelOk n k' ∧
      (∀ want, (ownContents n k).Perm (wanted conf n fw.leases ++ want) → (ownContents n k').Perm (wanted conf n fw'.leases ++ want)) ∧
      ((∃ l, ((a, p), l) ∈ fw.leases) → k' = k) ∧ Supported n.family a ∧
      (∀ c ∈ ownContents n k', c ∈ ownContents n k ∨ c ∈ leaseContents n.family ⟨a, p, 0⟩)) := by
  unfold handleMessage
  split
  · exact .inl ⟨_, _, rfl, by simp, by cases rx <;> rfl, by simp⟩
  · refine .inl ⟨_, _, rfl, by simp, ?_, ?_⟩
    · cases rx <;> simp [granted, FwMessage.newNack]
    · intro m hm; injection hm with hm; subst hm; rfl
  · rename_i a p hdec
    obtain ⟨m, t, port, rfl, hop, ha, hp, hsel, hck, hres, hne⟩ := fwdDecide_open hdec
    have hp' : conf.port.port ≠ p.port := by rw [hsel, selection_port]; exact fun h => hne h.symm
    rcases openPort_cases hn hl hc hd now a p ok hp' with ⟨fw', k', h1, h2, h3, h4, _, h6, hs, h8, h9, h10⟩ | ⟨h1, _, _⟩
    · right
      rw [h1]
      refine ⟨a, p, fw', k', hdec, rfl, ?_, h2, h3, h4, h6, h8, h9, hs, h10⟩
      simp [granted, ha, hp, hsel, FwMessage.newAck]
    · left
      rw [h1]
      refine ⟨_, _, rfl, by simp, ?_, ?_⟩
      · simp [granted, FwMessage.newNack]
      · intro m hm; injection hm with hm; subst hm; rfl

theorem TableOf.renewed {leases leases' : LeaseMap} {g : Grants} {a : IpAddr} {p : LeasePort} {e : Nat} (h : TableOf leases g)
    (r : Renewed leases leases' (a, p) e) : TableOf leases' (fun a' p' => if a' = a ∧ p' = p then some e else g a' p') := by
  intro a' p' e'
  have := r (a', p') e'
  rw [this]
  by_cases hid : a' = a ∧ p' = p
  · obtain ⟨rfl, rfl⟩ := hid
    simp [eq_comm]
  · have hid' : ¬ ((a', p') = (a, p)) := by simpa using hid
    rw [if_neg hid']
    simp only [if_neg hid]
    exact h a' p' e'

theorem fwdStep_inv {conf : Config} {n : NftNames} (hn : ChainOf conf n) {s : FwdState} {g : Grants} (h : FwdInv conf n s g)
    (op : FwdOp) (hf : OpFair n s op) :
    FwdInv conf n (fwdStep conf s op).2 (g.step conf.nftTimeout op (fwdStep conf s op).1) := by
  obtain ⟨phase, fw, k⟩ := s
  cases op with
  | foreign k' =>
    simp only [OpFair] at hf
    cases phase <;> simp only [fwdStep, FwdInv, Grants.step, granted] at h ⊢
    · exact ⟨h.1, h.2.1, h.2.2.1.unchanged hf, h.2.2.2⟩
    · exact ⟨h.1, h.2.1, h.2.2.of_unchanged hf⟩
    · exact h
  | reorder l =>
    simp only [OpFair] at hf
    cases phase <;> simp only [fwdStep, FwdInv, Grants.step, granted] at h ⊢
    · refine ⟨h.1.perm hf, h.2.1, h.2.2.1.perm hf, ?_⟩
      intro a p e
      rw [h.2.2.2 a p e]
      constructor
      · rintro ⟨l', hm, ht⟩; exact ⟨l', hf.symm.subset hm, ht⟩
      · rintro ⟨l', hm, ht⟩; exact ⟨l', hf.subset hm, ht⟩
    · exact ⟨h.1.perm hf, h.2⟩
    · exact h
  | terminate ok =>
    have key : fw.shutdown = false → FwdInv conf n (fwdStep conf ⟨phase, fw, k⟩ (.terminate ok)).2 (g.step conf.nftTimeout (.terminate ok) (fwdStep conf ⟨phase, fw, k⟩ (.terminate ok)).1) := by
      intro hd
      cases phase with
      | stopped => simp only [fwdStep, FwdInv] at h ⊢; exact h
      | crashed => exact h.elim
      | running =>
        simp only [fwdStep, NftFirewall.doShutdown, hd, if_false, Bool.false_eq_true,
          fullRebuild_shutdown hn (fw := { leases := [], shutdown := true }) rfl]
        cases ok <;> simp [FwdInv]
      | stopping =>
        simp only [fwdStep, NftFirewall.doShutdown, hd, if_false, Bool.false_eq_true,
          fullRebuild_shutdown hn (fw := { leases := [], shutdown := true }) rfl]
        cases ok <;> simp [FwdInv]
    cases phase with
    | running => exact key h.2.1
    | stopping => exact key h.2.1
    | stopped => simp only [fwdStep, FwdInv] at h ⊢; exact h
    | crashed => exact h.elim
  | request rx now ok =>
    cases phase with
    | running =>
      simp only [FwdInv] at h
      obtain ⟨h1, h2, h3, h4⟩ := h
      rcases request_cases hn h1 h3.ok h2 rx now ok with ⟨r, reply, he, hnp, hg, _⟩ | ⟨a, p, fw', k', _, he, hg, h5, h6, h7, h8, h9, _⟩
      · simp only [fwdStep, he]
        cases r with
        | panic => exact absurd rfl hnp
        | ok u => simp only [FwdInv, Grants.step, hg]; exact ⟨h1, h2, h3, h4⟩
        | err => simp only [FwdInv, Grants.step, hg]; exact ⟨h1, h2, h3, h4⟩
      · simp only [fwdStep, he, FwdInv, Grants.step, hg]
        refine ⟨h5, h6, ⟨?_, h8⟩, h4.renewed h7⟩
        have := h9 [] (by simpa using h3.rules)
        simpa using this
    | stopping =>
      simp only [FwdInv] at h
      obtain ⟨h1, h2, h3⟩ := h
      rcases request_cases hn h1 h3 h2 rx now ok with ⟨r, reply, he, hnp, hg, _⟩ | ⟨a, p, fw', k', _, he, hg, h5, h6, h7, h8, h9, _⟩
      · simp only [fwdStep, he]
        cases r with
        | panic => exact absurd rfl hnp
        | ok u => simp only [FwdInv]; exact ⟨h1, h2, h3⟩
        | err => simp only [FwdInv]; exact ⟨h1, h2, h3⟩
      · simp only [fwdStep, he, FwdInv]
        exact ⟨h5, h6, h8⟩
    | stopped => simp only [fwdStep, FwdInv] at h ⊢; exact h
    | crashed => exact h.elim
  | maintain now env =>
    obtain ⟨hu, hu'⟩ := hf
    cases phase with
    | running =>
      simp only [FwdInv] at h
      obtain ⟨h1, h2, h3, h4⟩ := h
      obtain ⟨r, k', he, hr⟩ := maintain_cases hn h1 h3 h2 now env hu hu'
      simp only [fwdStep, he]
      rcases hr with ⟨rfl, hk, _⟩ | ⟨rfl, hk⟩
      · simp only [FwdInv]; exact ⟨h1.filter _, h2, hk⟩
      · simp only [FwdInv, Grants.step, granted]
        refine ⟨h1.filter _, h2, hk, ?_⟩
        intro a p e
        have hg := h4 a p
        dsimp only
        constructor
        · intro hx
          split at hx
          · rename_i e' he'
            split at hx
            · rename_i hlt
              injection hx with hx
              subst hx
              obtain ⟨l, hm, ht⟩ := (hg e').1 he'
              refine ⟨l, List.mem_filter.2 ⟨hm, ?_⟩, ht⟩
              simp only [Lease.isTimedOut, ht]
              simpa using hlt
            · cases hx
          · cases hx
        · rintro ⟨l, hm, ht⟩
          obtain ⟨hm, hto⟩ := List.mem_filter.1 hm
          have := (hg e).2 ⟨l, hm, ht⟩
          rw [this]
          have hlt : now < e := by simpa [Lease.isTimedOut, ht] using hto
          simp [hlt]
    | stopping => simp only [fwdStep]; exact h
    | stopped => simp only [fwdStep, FwdInv] at h ⊢; exact h
    | crashed => exact h.elim

theorem fwdRun_inv {conf : Config} {n : NftNames} (hn : ChainOf conf n) {s : FwdState} {g : Grants} (h : FwdInv conf n s g)
    (ops : List FwdOp) (hf : Fair conf n s ops) :
    FwdInv conf n (fwdRun conf s ops).2 (g.after conf.nftTimeout (fwdRun conf s ops).1) := by
  induction ops generalizing s g with
  | nil => exact h
  | cons op rest ih => exact ih (fwdStep_inv hn h op hf.1) hf.2

theorem fwdStart_inv {conf : Config} {k : Kernel} {ok : Bool} {s : FwdState} (h : fwdStart conf k ok = some s) :
    s.phase = .running ∧ ∃ n, ChainOf conf n ∧ FwdInv conf n s Grants.none := by
  unfold fwdStart NftFirewall.new at h
  cases hg : NftNames.get conf with
  | ok n =>
    have hn := names_get_iff.1 hg
    simp only at h
    rcases fullRebuild_cases hn (fw := { leases := [], shutdown := false }) (by simp) rfl k ok with ⟨_, h1, h2, _⟩ | h1
    · generalize fullRebuild conf { leases := [], shutdown := false } k ok = x at h h1 h2
      obtain ⟨r, k'⟩ := x
      simp only at h1 h2
      subst h1
      simp only [Option.some.injEq] at h
      subst h
      refine ⟨rfl, n, hn, ⟨⟨by simp, by simp, by simp⟩, rfl, h2, ?_⟩⟩
      intro a p e
      simp [Grants.none]
    · rw [h1] at h
      simp at h
  | err => simp [fullRebuild, rebuildCmds, hg] at h
  | panic => exact absurd hg (names_get_not_panic _)

theorem chainOf_unique {conf : Config} {n n' : NftNames} (h : ChainOf conf n) (h' : ChainOf conf n') : n = n' := by
  have := names_get_iff.2 h
  rw [names_get_iff.2 h'] at this
  injection this with this
  exact this.symm

/-! ### Packets -/

/-- The packet goes to the port. -/
def singleCovers : SinglePort → Packet → Prop
  | .Tcp port, pkt => pkt.proto = .tcp ∧ pkt.dport = port
  | .Udp port, pkt => pkt.proto = .udp ∧ pkt.dport = port

theorem dport_holds (p : SinglePort) (pkt : Packet) :
    stmtHolds pkt (statementMatchDport p) = true ↔ singleCovers p pkt := by
  obtain ⟨src, proto, dport⟩ := pkt
  have hn : ∀ port : UInt16, port.toNat = dport.toNat ↔ dport = port :=
    fun port => ⟨fun h => UInt16.toNat_inj.1 h.symm, fun h => by rw [h]⟩
  have h1 : "tcp".toList ≠ "udp".toList := by decide
  have h2 : "udp".toList ≠ "tcp".toList := by decide
  cases p with
  | Tcp port =>
    simp only [statementMatchDport, stmtHolds, singleCovers, Bool.and_eq_true, decide_eq_true_eq, hn]
    cases proto <;> simp only [L4.name, h1, reduceCtorEq]
  | Udp port =>
    simp only [statementMatchDport, stmtHolds, singleCovers, Bool.and_eq_true, decide_eq_true_eq, hn]
    cases proto <;> simp only [L4.name, h2, reduceCtorEq]

theorem hostOf_v6 (a : Arr 16) : hostOf (.v6 a) = match toIpv4Mapped a with | some b => .v4 b | none => .v6 a := by
  simp only [hostOf, toIpv4Mapped]
  by_cases h : a.val.take 12 = [0, 0, 0, 0, 0, 0, 0, 0, 0, 0, 0xFF, 0xFF] <;> simp [h]

theorem saddr_holds {f : NfFamily} {a : IpAddr} {s : Stmt} (h : statementMatchSaddr f a = .ok s) (pkt : Packet) :
    (familySees f pkt.src && stmtHolds pkt s) = true ↔ hostOf a = pkt.src := by
  obtain ⟨src, proto, dport⟩ := pkt
  have v4 : ∀ (x : Arr 4) (f : NfFamily), (f = .INet ∨ f = .IP) →
      ((familySees f src && stmtHolds ⟨src, proto, dport⟩ (.matchSaddr "ip".toList (showIpv4 x))) = true ↔ IpAddr.v4 x = src) := by
    intro x f hf
    cases src with
    | v4 y =>
      have : familySees f (.v4 y) = true := by rcases hf with rfl | rfl <;> rfl
      simp only [this, stmtHolds, Bool.true_and, decide_true, decide_eq_true_eq, IpAddr.v4.injEq, readIpv4_showIpv4, Option.some.injEq]
    | v6 y =>
      have : decide ("ip".toList = "ip6".toList) = false := by decide
      simp only [stmtHolds, this, Bool.false_and, Bool.and_false, Bool.false_eq_true, false_iff]
      intro h; cases h
  have v6 : ∀ (x : Arr 16) (f : NfFamily), (f = .INet ∨ f = .IP6) →
      ((familySees f src && stmtHolds ⟨src, proto, dport⟩ (.matchSaddr "ip6".toList (showIpv6 x))) = true ↔ IpAddr.v6 x = src) := by
    intro x f hf
    cases src with
    | v6 y =>
      have : familySees f (.v6 y) = true := by rcases hf with rfl | rfl <;> rfl
      simp only [this, stmtHolds, Bool.true_and, decide_true, decide_eq_true_eq, IpAddr.v6.injEq, readIpv6_showIpv6, Option.some.injEq]
    | v4 y =>
      have : decide ("ip6".toList = "ip".toList) = false := by decide
      simp only [stmtHolds, this, Bool.false_and, Bool.and_false, Bool.false_eq_true, false_iff]
      intro h; cases h
  unfold statementMatchSaddr at h
  cases a with
  | v4 a =>
    cases f <;> simp only [R.bind_ok, R.bind_err, R.ok.injEq, reduceCtorEq] at h <;> subst h
    · exact v4 a _ (.inl rfl)
    · exact v4 a _ (.inr rfl)
  | v6 a =>
    rw [hostOf_v6]
    cases hm : toIpv4Mapped a with
    | some b =>
      cases f <;> simp only [hm, R.bind_ok, R.bind_err, R.ok.injEq, reduceCtorEq] at h <;> subst h
      · exact v4 b _ (.inl rfl)
      · exact v4 b _ (.inr rfl)
    | none =>
      cases f <;> simp only [hm, R.bind_ok, R.bind_err, R.ok.injEq, reduceCtorEq] at h <;> subst h
      · exact v6 a _ (.inl rfl)
      · exact v6 a _ (.inr rfl)

theorem ruleAccepts_cons {pkt : Packet} {s : Stmt} (h : s ≠ .accept) (rest : List Stmt) :
    ruleAccepts pkt (s :: rest) = (stmtHolds pkt s && ruleAccepts pkt rest) := by
  cases s with
  | accept => exact absurd rfl h
  | matchSaddr => rfl
  | matchDport => rfl

theorem dport_ne_accept (p : SinglePort) : statementMatchDport p ≠ .accept := by cases p <;> simp [statementMatchDport]

theorem saddr_ne_accept {f : NfFamily} {a : IpAddr} {s : Stmt} (h : statementMatchSaddr f a = .ok s) : s ≠ .accept := by
  unfold statementMatchSaddr at h
  cases a with
  | v4 a => cases f <;> simp at h <;> subst h <;> simp
  | v6 a => cases hm : toIpv4Mapped a <;> cases f <;> simp [hm] at h <;> subst h <;> simp

theorem ctrl_accepts (p : SinglePort) (pkt : Packet) : ruleAccepts pkt (ctrlContent p).2 = true ↔ singleCovers p pkt := by
  rw [ctrlContent, ruleAccepts_cons (dport_ne_accept p), ← dport_holds]
  simp [ruleAccepts]

theorem lease_accepts {f : NfFamily} {a : IpAddr} (hs : Supported f a) (p : SinglePort) (pkt : Packet) :
    (familySees f pkt.src && ruleAccepts pkt (leaseContent f a p).2) = true ↔ hostOf a = pkt.src ∧ singleCovers p pkt := by
  obtain ⟨s, hs⟩ := hs
  rw [leaseContent, saddrStmts, hs, ← dport_holds, ← saddr_holds hs]
  simp only [List.singleton_append]
  rw [ruleAccepts_cons (saddr_ne_accept hs), ruleAccepts_cons (dport_ne_accept p)]
  simp [ruleAccepts, and_assoc]

theorem singles_cover (p : LeasePort) (pkt : Packet) : (∃ q ∈ p.singles, singleCovers q pkt) ↔ portCovers p pkt := by
  obtain ⟨src, proto, dport⟩ := pkt
  cases p <;> simp [LeasePort.singles, singleCovers, portCovers]
  cases proto <;> simp

theorem leaseContents_accept {f : NfFamily} {l : Lease} (hs : Supported f l.addr) (pkt : Packet) :
    (familySees f pkt.src && (leaseContents f l).any (fun c => ruleAccepts pkt c.2)) = true ↔ covers l.addr l.port pkt := by
  rw [covers, ← singles_cover, leaseContents]
  simp only [Bool.and_eq_true, List.any_map, List.any_eq_true, Function.comp]
  constructor
  · rintro ⟨h1, q, hq, h2⟩
    have := (lease_accepts hs q pkt).1 (by rw [h1, h2]; rfl)
    exact ⟨this.1, q, hq, this.2⟩
  · rintro ⟨h1, q, hq, h2⟩
    have := (lease_accepts hs q pkt).2 ⟨h1, h2⟩
    rw [Bool.and_eq_true] at this
    exact ⟨this.1, q, hq, this.2⟩

theorem ctrlContents_accept (conf : Config) (pkt : Packet) :
    (ctrlContents conf).any (fun c => ruleAccepts pkt c.2) = true ↔ toControlPort conf pkt := by
  unfold ctrlContents toControlPort
  rw [List.any_append, Bool.or_eq_true]
  have h1 := ctrl_accepts (.Tcp conf.port.port) pkt
  have h2 := ctrl_accepts (.Udp conf.port.port) pkt
  simp only [singleCovers] at h1 h2
  cases conf.port.tcp <;> cases conf.port.udp <;> simp [h1, h2] <;> (try exact And.comm)
  constructor
  · rintro (⟨h, h'⟩ | ⟨h, h'⟩)
    · exact ⟨h', .inl h⟩
    · exact ⟨h', .inr h⟩
  · rintro ⟨h, h' | h'⟩
    · exact .inl ⟨h', h⟩
    · exact .inr ⟨h', h⟩

theorem any_perm {α : Type} {l l' : List α} (h : l.Perm l') (f : α → Bool) : l.any f = l'.any f := by
  rw [Bool.eq_iff_iff]
  simp only [List.any_eq_true]
  constructor
  · rintro ⟨x, hx, hf⟩; exact ⟨x, h.subset hx, hf⟩
  · rintro ⟨x, hx, hf⟩; exact ⟨x, h.symm.subset hx, hf⟩

theorem chainAccepts_contents (n : NftNames) (k : Kernel) (pkt : Packet) :
    chainAccepts n k pkt = (familySees n.family pkt.src && (ownContents n k).any (fun c => ruleAccepts pkt c.2)) := by
  simp [chainAccepts, ownContents, List.any_map, KRule.content, Function.comp_def]

/-- What the chain accepts when it holds what it should. -/
theorem chainOk_accepts {conf : Config} {n : NftNames} {leases : LeaseMap} {k : Kernel} (hl : LeasesOk n leases)
    (hc : ChainOk conf n leases k) (pkt : Packet) :
    chainAccepts n k pkt = true ↔
      (familySees n.family pkt.src = true ∧ toControlPort conf pkt) ∨ ∃ e ∈ leases, covers e.1.1 e.1.2 pkt := by
  rw [chainAccepts_contents, any_perm hc.rules, wanted, List.any_append]
  have hle : ∀ e ∈ leases, (familySees n.family pkt.src && (leaseContents n.family e.2).any (fun c => ruleAccepts pkt c.2)) = true ↔
      covers e.1.1 e.1.2 pkt := by
    intro e he
    rw [hl.keys e he]
    exact leaseContents_accept (hl.supp e he) pkt
  rw [Bool.and_eq_true, Bool.or_eq_true, ctrlContents_accept, List.any_flatMap, List.any_eq_true]
  constructor
  · rintro ⟨h1, h2 | ⟨e, he, h2⟩⟩
    · exact .inl ⟨h1, h2⟩
    · exact .inr ⟨e, he, (hle e he).1 (by rw [h1, h2]; rfl)⟩
  · rintro (⟨h1, h2⟩ | ⟨e, he, h2⟩)
    · exact ⟨h1, .inl h2⟩
    · have := (hle e he).2 h2
      rw [Bool.and_eq_true] at this
      exact ⟨this.1, .inr ⟨e, he, this.2⟩⟩

end Letmein
