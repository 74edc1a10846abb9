import Verif.Props.FirewallMore

/-!
# Property C70: other programs change letmein's own chain

Here nothing is assumed about other programs: they may flush the chain, add and remove rules, at any time.
-/

namespace Letmein.Spec

/-- Reordering the hash map keeps its entries. (Nothing about other programs.) -/
def OpOwn (s : FwdState) : FwdOp → Prop
  | .reorder l => l.Perm s.fw.leases
  | _ => True

/-- The daemon itself behaves in every operation of the history. -/
def OwnFair (conf : Config) : FwdState → List FwdOp → Prop
  | _, [] => True
  | s, op :: rest => OpOwn s op ∧ OwnFair conf (fwdStep conf s op).2 rest

end Letmein.Spec

namespace Letmein.Props

open Letmein Prog Spec

/-! ### Leases do not depend on the ruleset -/

/-- Adding rules always works, and appends them. -/
theorem applyCmds_adds_any (n : NftNames) (k : Kernel) (cs : List Content) :
    ∃ k', applyCmds k (cs.map (addCmd n)) = some k' ∧ ownContents n k' = ownContents n k ++ cs := by
  induction cs generalizing k with
  | nil => exact ⟨k, rfl, by simp⟩
  | cons c cs ih =>
    let r : KRule := { family := n.family, table := n.table, chain := n.chainInput, handle := k.gen + 1, expr := c.2, comment := c.1 }
    let k1 : Kernel := { rules := k.rules ++ [r], gen := k.gen + 1 }
    have hr : r.inChain n.family n.table n.chainInput = true := by simp [KRule.inChain, r]
    have hown : ownRules n k1 = ownRules n k ++ [r] := by simp [ownRules_eq, k1, List.filter_append, hr]
    obtain ⟨k', h1, h2⟩ := ih k1
    refine ⟨k', h1, ?_⟩
    rw [h2]
    simp [ownContents, hown, KRule.content, r]

/-- A request in any ruleset. -/
theorem openPort_any {conf : Config} {n : NftNames} (hn : ChainOf conf n) {fw : NftFirewall} (hl : LeasesOk n fw.leases)
    (hd : fw.shutdown = false) (k : Kernel) (now : Nat) (addr : IpAddr) (port : LeasePort) (ok : Bool) (hp : conf.port.port ≠ port.port) :
    (∃ fw' k', fw.openPort conf k now addr port ok = (.ok (), fw', k') ∧ LeasesOk n fw'.leases ∧ fw'.shutdown = false ∧
      Renewed fw.leases fw'.leases (addr, port) (now + conf.nftTimeout) ∧ Supported n.family addr ∧
      ((¬ ∃ l, ((addr, port), l) ∈ fw.leases) → ownContents n k' = ownContents n k ++ leaseContents n.family ⟨addr, port, 0⟩)) ∨
    fw.openPort conf k now addr port ok = (.err, fw, k) := by
  have h0 : KernelOk n ⟨[], 0⟩ := ⟨by simp [ownRules_eq], by simp [ownRules_eq]⟩
  have hcase := openPort_cases (k := ⟨[], 0⟩) hn hl h0 hd now addr port ok hp
  unfold NftFirewall.openPort at hcase ⊢
  rw [if_neg (by simp [hd])] at hcase ⊢
  simp only at hcase ⊢
  by_cases hex : fw.leases.any (fun e => decide (e.1 = (addr, port))) = true
  · rw [if_pos hex] at hcase ⊢
    rcases hcase with ⟨fw', k', h1, h2, h3, h4, -, -, h5, -⟩ | ⟨h1, -⟩
    · refine .inl ⟨fw', k, ?_, h2, h3, h4, h5, fun hx => ?_⟩
      · injection h1 with _ h1
        injection h1 with h1 _
        rw [h1]
      · obtain ⟨e0, he0, heq⟩ := List.any_eq_true.1 hex
        simp only [decide_eq_true_eq] at heq
        exact absurd ⟨e0.2, by rw [← heq]; exact he0⟩ hx
    · injection h1 with h1 _
      cases h1
  · rw [if_neg hex] at hcase ⊢
    have hnew : Lease.new conf now addr port = .ok { addr, port, timeout := now + conf.nftTimeout } := by
      simp [Lease.new, rassert, hp]
    rw [hnew] at hcase ⊢
    simp only [addLease] at hcase ⊢
    by_cases hs : Supported n.family addr
    · rw [genAddLeaseCmds_ok hn (by exact hs)] at hcase ⊢
      obtain ⟨k1, h1, -⟩ := applyCmds_adds_any n ⟨[], 0⟩ (leaseContents n.family { addr, port, timeout := now + conf.nftTimeout })
      obtain ⟨k2, h2, h2'⟩ := applyCmds_adds_any n k (leaseContents n.family { addr, port, timeout := now + conf.nftTimeout })
      cases ok with
      | false => exact .inr (by simp [applyBatch])
      | true =>
        left
        simp only [applyBatch, if_true, h1, h2] at hcase ⊢
        rcases hcase with ⟨fw', k', h3, h4, h5, h6, -, -, h7, -⟩ | ⟨h3, -⟩
        · refine ⟨fw', k2, ?_, h4, h5, h6, h7, fun _ => h2'⟩
          injection h3 with _ h3
          injection h3 with h3 _
          rw [h3]
        · injection h3 with h3 _
          cases h3
    · rw [genAddLeaseCmds_err hn (by exact hs)]
      exact .inr rfl

/-- A message in any ruleset. -/
theorem request_any {conf : Config} {n : NftNames} (hn : ChainOf conf n) {fw : NftFirewall} (hl : LeasesOk n fw.leases)
    (hd : fw.shutdown = false) (k : Kernel) (rx : FwRecvOut) (now : Nat) (ok : Bool) :
    (∃ r reply, handleMessage conf fw k rx now ok = (r, reply, fw, k) ∧ r ≠ .panic ∧ granted (.request rx now ok) reply = none ∧
      (∀ m, reply = some m → m.operation = .Nack)) ∨
    (∃ a p fw' k', handleMessage conf fw k rx now ok = (.ok (), some FwMessage.newAck, fw', k') ∧
      granted (.request rx now ok) (some FwMessage.newAck) = some (a, p, now) ∧ LeasesOk n fw'.leases ∧ fw'.shutdown = false ∧
      Renewed fw.leases fw'.leases (a, p) (now + conf.nftTimeout) ∧ Supported n.family a ∧
      ((¬ ∃ l, ((a, p), l) ∈ fw.leases) → ownContents n k' = ownContents n k ++ leaseContents n.family ⟨a, p, 0⟩)) := by
  unfold handleMessage
  split
  · exact .inl ⟨_, _, rfl, by simp, by cases rx <;> rfl, by simp⟩
  · refine .inl ⟨_, _, rfl, by simp, ?_, ?_⟩
    · cases rx <;> simp [granted, FwMessage.newNack]
    · intro m hm; injection hm with hm; subst hm; rfl
  · rename_i a p hdec
    obtain ⟨m, t, port, rfl, hop, ha, hp, hsel, hck, hres, hne⟩ := fwdDecide_open hdec
    have hp' : conf.port.port ≠ p.port := by rw [hsel, selection_port]; exact fun h => hne h.symm
    rcases openPort_any hn hl hd k now a p ok hp' with ⟨fw', k', h1, h2, h3, h4, h5, h6⟩ | h1
    · right
      rw [h1]
      exact ⟨a, p, fw', k', rfl, by simp [granted, ha, hp, hsel, FwMessage.newAck], h2, h3, h4, h5, h6⟩
    · left
      rw [h1]
      refine ⟨_, _, rfl, by simp, ?_, ?_⟩
      · simp [granted, FwMessage.newNack]
      · intro m hm; injection hm with hm; subst hm; rfl

theorem removeLeases_not_panic (conf : Config) (ls : List Lease) (k : Kernel) (env : NftEnv) : (removeLeases conf ls k env).1 ≠ .panic := by
  unfold removeLeases
  split
  · simp
  · split
    · simp
    · simp only
      cases hcol : collect (genDeleteLeaseCmds conf k.rules) ls with
      | err => simp
      | panic => exact absurd hcol (collect_not_panic (fun l _ => genDelete_not_panic conf k.rules l))
      | ok cmds =>
        rcases applyBatch_cases (env.afterList k) cmds.flatten env.deleteOk with ⟨k', _, _, hb⟩ | hb <;> simp [hb]

/-- Maintenance in any ruleset. If the removal of the expired rules fails, the chain is built anew. -/
theorem maintain_any {conf : Config} {n : NftNames} (hn : ChainOf conf n) {fw : NftFirewall} (hl : LeasesOk n fw.leases)
    (hd : fw.shutdown = false) (k : Kernel) (now : Nat) (env : NftEnv) :
    ∃ r k', fw.maintain conf k now env = (r, { fw with leases := fw.leases.filter (fun e => !e.2.isTimedOut now) }, k') ∧ r ≠ .panic ∧
      ((∃ e ∈ fw.leases, e.2.isTimedOut now = true) →
        (removeLeases conf ((fw.leases.filter (fun e => e.2.isTimedOut now)).map (·.2)) k env).1 = .err → r = .ok () →
        ChainOk conf n (fw.leases.filter (fun e => !e.2.isTimedOut now)) k') := by
  unfold NftFirewall.maintain
  rw [if_neg (by simp [hd])]
  by_cases he : (pruneAllLeaseTimeouts now fw.leases).2.isEmpty = true
  · simp only [he, if_true]
    refine ⟨_, _, rfl, by simp, ?_⟩
    rintro ⟨e, hm, ht⟩
    have he : fw.leases.filter (fun e => e.2.isTimedOut now) = [] := by simpa [pruneAllLeaseTimeouts] using he
    have : e ∈ fw.leases.filter (fun e => e.2.isTimedOut now) := List.mem_filter.2 ⟨hm, ht⟩
    rw [he] at this
    cases this
  · simp only [he, if_false, Bool.false_eq_true]
    have hnp := removeLeases_not_panic conf (pruneAllLeaseTimeouts now fw.leases).2 k env
    have hsame : removeLeases conf ((fw.leases.filter (fun e => e.2.isTimedOut now)).map (·.2)) k env =
      removeLeases conf (pruneAllLeaseTimeouts now fw.leases).2 k env := rfl
    rw [hsame]
    generalize removeLeases conf (pruneAllLeaseTimeouts now fw.leases).2 k env = q at hnp ⊢
    obtain ⟨r, k1⟩ := q
    cases r with
    | panic => exact absurd rfl hnp
    | ok u => exact ⟨_, _, rfl, by simp, fun _ h => by cases h⟩
    | err =>
      simp only
      have hfr := fullRebuild_cases hn (fw := { fw with leases := fw.leases.filter (fun e => !e.2.isTimedOut now) })
        (hl.filter _).supp hd (env.beforeRebuild k1) env.rebuildOk
      have hsame2 : fullRebuild conf { fw with leases := (pruneAllLeaseTimeouts now fw.leases).1 } (env.beforeRebuild k1) env.rebuildOk =
        fullRebuild conf { fw with leases := fw.leases.filter (fun e => !e.2.isTimedOut now) } (env.beforeRebuild k1) env.rebuildOk := rfl
      rw [hsame2]
      rcases hfr with ⟨_, h3, h4, _⟩ | h3
      · exact ⟨_, _, rfl, by rw [h3]; simp, fun _ _ _ => h4⟩
      · rw [h3]
        exact ⟨_, _, rfl, by simp, fun _ _ h => by cases h⟩

/-- What holds of the daemon's own state, whatever others do to the ruleset. -/
def LeaseInv (n : NftNames) (s : FwdState) (g : Grants) : Prop :=
  match s.phase with
  | .running => LeasesOk n s.fw.leases ∧ s.fw.shutdown = false ∧ TableOf s.fw.leases g
  | .stopping => LeasesOk n s.fw.leases ∧ s.fw.shutdown = false
  | .stopped => s.fw.shutdown = true
  | .crashed => False

theorem tableOf_pruned {leases : LeaseMap} {g : Grants} (h4 : TableOf leases g) (now : Nat) :
    TableOf (leases.filter (fun e => !e.2.isTimedOut now)) (fun a q => match g a q with
      | some e => if now < e then some e else none
      | none => none) := by
  intro a p e
  have hg := h4 a p
  dsimp only
  constructor
  · intro hx
    split at hx
    · rename_i e' he'
      split at hx
      · rename_i hlt
        injection hx with hx
        subst hx
        obtain ⟨l, hm, ht⟩ := (hg e').1 he'
        refine ⟨l, List.mem_filter.2 ⟨hm, ?_⟩, ht⟩
        simp only [Lease.isTimedOut, ht]
        simpa using hlt
      · cases hx
    · cases hx
  · rintro ⟨l, hm, ht⟩
    obtain ⟨hm, hto⟩ := List.mem_filter.1 hm
    have := (hg e).2 ⟨l, hm, ht⟩
    rw [this]
    have hlt : now < e := by simpa [Lease.isTimedOut, ht] using hto
    simp [hlt]

theorem fwdStep_leases {conf : Config} {n : NftNames} (hn : ChainOf conf n) {s : FwdState} {g : Grants} (h : LeaseInv n s g)
    (op : FwdOp) (hf : OpOwn s op) : LeaseInv n (fwdStep conf s op).2 (g.step conf.nftTimeout op (fwdStep conf s op).1) := by
  obtain ⟨phase, fw, k⟩ := s
  cases op with
  | foreign k' => exact h
  | reorder l =>
    simp only [OpOwn] at hf
    cases phase <;> simp only [fwdStep, LeaseInv, Grants.step, granted] at h ⊢
    · refine ⟨h.1.perm hf, h.2.1, ?_⟩
      intro a p e
      rw [h.2.2 a p e]
      constructor
      · rintro ⟨l', hm, ht⟩; exact ⟨l', hf.symm.subset hm, ht⟩
      · rintro ⟨l', hm, ht⟩; exact ⟨l', hf.subset hm, ht⟩
    · exact ⟨h.1.perm hf, h.2⟩
    · exact h
  | terminate ok =>
    cases phase with
    | stopped => exact h
    | crashed => exact h.elim
    | running =>
      have hd : fw.shutdown = false := h.2.1
      simp only [fwdStep, NftFirewall.doShutdown, hd, if_false, Bool.false_eq_true,
        fullRebuild_shutdown hn (fw := { leases := [], shutdown := true }) rfl]
      cases ok <;> simp [LeaseInv]
    | stopping =>
      have hd : fw.shutdown = false := h.2
      simp only [fwdStep, NftFirewall.doShutdown, hd, if_false, Bool.false_eq_true,
        fullRebuild_shutdown hn (fw := { leases := [], shutdown := true }) rfl]
      cases ok <;> simp [LeaseInv]
  | request rx now ok =>
    cases phase with
    | running =>
      obtain ⟨h1, h2, h4⟩ := h
      rcases request_any hn h1 h2 k rx now ok with ⟨r, reply, he, hnp, hg, _⟩ | ⟨a, p, fw', k', he, hg, h5, h6, h7, _⟩
      · simp only [fwdStep, he]
        cases r with
        | panic => exact absurd rfl hnp
        | ok u => simp only [LeaseInv, Grants.step, hg]; exact ⟨h1, h2, h4⟩
        | err => simp only [LeaseInv, Grants.step, hg]; exact ⟨h1, h2, h4⟩
      · simp only [fwdStep, he, LeaseInv, Grants.step, hg]
        exact ⟨h5, h6, h4.renewed h7⟩
    | stopping =>
      obtain ⟨h1, h2⟩ := h
      rcases request_any hn h1 h2 k rx now ok with ⟨r, reply, he, hnp, hg, _⟩ | ⟨a, p, fw', k', he, hg, h5, h6, h7, _⟩
      · simp only [fwdStep, he]
        cases r with
        | panic => exact absurd rfl hnp
        | ok u => exact ⟨h1, h2⟩
        | err => exact ⟨h1, h2⟩
      · simp only [fwdStep, he, LeaseInv]
        exact ⟨h5, h6⟩
    | stopped => exact h
    | crashed => exact h.elim
  | maintain now env =>
    cases phase with
    | running =>
      obtain ⟨h1, h2, h4⟩ := h
      obtain ⟨r, k', he, hnp, -⟩ := maintain_any hn h1 h2 k now env
      simp only [fwdStep, he]
      cases r with
      | panic => exact absurd rfl hnp
      | err => exact ⟨h1.filter _, h2⟩
      | ok u => exact ⟨h1.filter _, h2, tableOf_pruned h4 now⟩
    | stopping => exact h
    | stopped => exact h
    | crashed => exact h.elim

theorem fwdRun_leases {conf : Config} {n : NftNames} (hn : ChainOf conf n) {s : FwdState} {g : Grants} (h : LeaseInv n s g)
    (ops : List FwdOp) (hf : OwnFair conf s ops) :
    LeaseInv n (fwdRun conf s ops).2 (g.after conf.nftTimeout (fwdRun conf s ops).1) := by
  induction ops generalizing s g with
  | nil => exact h
  | cons op rest ih => exact ih (fwdStep_leases hn h op hf.1) hf.2

theorem fwdStart_leases {conf : Config} {n : NftNames} (hn : ChainOf conf n) {k : Kernel} {ok : Bool} {s : FwdState} (h : fwdStart conf k ok = some s) :
    LeaseInv n s Grants.none := by
  obtain ⟨hp, n', hn', hi⟩ := fwdStart_inv h
  obtain rfl := chainOf_unique hn hn'
  obtain ⟨h1, h2, _, h4⟩ := inv_running hi hp
  unfold LeaseInv
  rw [hp]
  exact ⟨h1, h2, h4⟩

/-! ### C70 -/

/-- C70 as stated: whatever other programs do, after an acknowledged request the port is open. -/
def C70_statement : Prop :=
  ∀ (conf : Config) (n : NftNames), ChainOf conf n → ∀ (k0 : Kernel) (ok0 : Bool) (s0 : FwdState), fwdStart conf k0 ok0 = some s0 →
    ∀ (ops : List FwdOp) (op : FwdOp), OwnFair conf s0 (ops ++ [op]) → (fwdRun conf s0 ops).2.phase = .running →
    ∀ addr p now, granted op (fwdStep conf (fwdRun conf s0 ops).2 op).1 = some (addr, p, now) →
    ∀ pkt, covers addr p pkt → chainAccepts n (fwdStep conf (fwdRun conf s0 ops).2 op).2.kernel pkt = true

/-- **C70** (partial: first requests). Whatever other programs have done to the chain: after an acknowledged request for an address and port that had
not been granted the port is open. Missing: the renewal of a grant writes no rule, so it does not bring back a rule others have removed (`C70_fails`). -/
theorem C70_first_request_partial (conf : Config) (n : NftNames) (hn : ChainOf conf n) (k0 : Kernel) (ok0 : Bool) (s0 : FwdState)
    (h0 : fwdStart conf k0 ok0 = some s0) (ops : List FwdOp) (op : FwdOp) (hf : OwnFair conf s0 ops)
    (hr : (fwdRun conf s0 ops).2.phase = .running) (addr : IpAddr) (p : LeasePort) (now : Nat)
    (hg : granted op (fwdStep conf (fwdRun conf s0 ops).2 op).1 = some (addr, p, now))
    (hfirst : Grants.none.after conf.nftTimeout (fwdRun conf s0 ops).1 addr p = none) (pkt : Packet) (hc : covers addr p pkt) :
    chainAccepts n (fwdStep conf (fwdRun conf s0 ops).2 op).2.kernel pkt = true := by
  have hi := fwdRun_leases hn (fwdStart_leases hn h0) ops hf
  generalize Grants.none.after conf.nftTimeout (fwdRun conf s0 ops).1 = g at *
  generalize (fwdRun conf s0 ops).2 = s at *
  obtain ⟨phase, fw, k⟩ := s
  simp only at hr
  subst hr
  obtain ⟨h1, h2, h4⟩ := hi
  cases op with
  | request rx now' ok =>
    rcases request_any hn h1 h2 k rx now' ok with ⟨r, reply, he, hnp, hg', _⟩ | ⟨a, q, fw', k', he, hg', h5, h6, h7, h8, h9⟩
    · have hrep : (fwdStep conf ⟨.running, fw, k⟩ (.request rx now' ok)).1 = reply := by
        simp only [fwdStep, he]
      rw [hrep, hg'] at hg
      cases hg
    · simp only [fwdStep, he] at hg ⊢
      rw [hg'] at hg
      simp only [Option.some.injEq, Prod.mk.injEq] at hg
      obtain ⟨rfl, rfl, rfl⟩ := hg
      have hnot : ¬ ∃ l, ((a, q), l) ∈ fw.leases := by
        rintro ⟨l, hm⟩
        have := (h4 a q l.timeout).2 ⟨l, hm, rfl⟩
        rw [this] at hfirst
        cases hfirst
      rw [chainAccepts_contents, h9 hnot, List.any_append]
      have := (leaseContents_accept (l := ⟨a, q, 0⟩) h8 pkt).2 hc
      rw [Bool.and_eq_true] at this ⊢
      exact ⟨this.1, by rw [this.2, Bool.or_true]⟩
  | _ => simp [granted] at hg

/-- **C70** (recovery). Whatever other programs have done to the chain: when a grant has expired whose rule is not in the chain any more (or the chain
cannot be listed), the next maintenance, if the daemon survives it, makes the chain right again: from then on, as long as others leave it alone, it
accepts exactly what goes to the control port or is granted. -/
theorem C70_recovery (conf : Config) (n : NftNames) (hn : ChainOf conf n) (k0 : Kernel) (ok0 : Bool) (s0 : FwdState)
    (h0 : fwdStart conf k0 ok0 = some s0) (ops : List FwdOp) (hf : OwnFair conf s0 ops) (now : Nat) (env : NftEnv) (a : IpAddr) (q : LeasePort)
    (e : Nat) (hexp : Grants.none.after conf.nftTimeout (fwdRun conf s0 ops).1 a q = some e) (hnow : e ≤ now)
    (hmiss : env.listOk = false ∨ ∃ single ∈ q.singles, ∀ r ∈ ownRules n (fwdRun conf s0 ops).2.kernel, r.comment ≠ some (genRuleComment (some a) single))
    (ops' : List FwdOp) (hf' : Fair conf n (fwdRun conf s0 (ops ++ [.maintain now env])).2 ops')
    (hmid : (fwdRun conf s0 (ops ++ [.maintain now env])).2.phase = .running)
    (hr : (fwdRun conf s0 (ops ++ [.maintain now env] ++ ops')).2.phase = .running) (pkt : Packet) :
    chainAccepts n (fwdRun conf s0 (ops ++ [.maintain now env] ++ ops')).2.kernel pkt = true ↔
      (familySees n.family pkt.src = true ∧ toControlPort conf pkt) ∨
      ∃ addr p e, Grants.none.after conf.nftTimeout (fwdRun conf s0 (ops ++ [.maintain now env] ++ ops')).1 addr p = some e ∧ covers addr p pkt := by
  have hinv : FwdInv conf n (fwdRun conf s0 (ops ++ [.maintain now env])).2
      (Grants.none.after conf.nftTimeout (fwdRun conf s0 (ops ++ [.maintain now env])).1) := by
    have hi := fwdRun_leases hn (fwdStart_leases hn h0) ops hf
    rw [fwdRun_append] at hmid ⊢
    simp only [after_append] at hmid ⊢
    generalize Grants.none.after conf.nftTimeout (fwdRun conf s0 ops).1 = g at *
    generalize (fwdRun conf s0 ops).2 = s at *
    obtain ⟨phase, fw, k⟩ := s
    simp only [fwdRun, Grants.after] at hmid ⊢
    cases phase with
    | stopping => simp [fwdStep] at hmid
    | stopped => simp [fwdStep] at hmid
    | crashed => simp [fwdStep] at hmid
    | running =>
      obtain ⟨h1, h2, h4⟩ := hi
      simp only at h1 h2 h4
      obtain ⟨r, k', he, hnp, hok⟩ := maintain_any hn h1 h2 k now env
      obtain ⟨l, hm, ht⟩ := (h4 a q e).1 hexp
      have hto : l.isTimedOut now = true := by simp only [Lease.isTimedOut, ht]; simpa using hnow
      have hkey := h1.keys _ hm
      have hmem : l ∈ (fw.leases.filter (fun e => e.2.isTimedOut now)).map (·.2) :=
        List.mem_map.2 ⟨_, List.mem_filter.2 ⟨hm, hto⟩, rfl⟩
      have hrem : (removeLeases conf ((fw.leases.filter (fun e => e.2.isTimedOut now)).map (·.2)) k env).1 = .err := by
        generalize (fw.leases.filter (fun e => e.2.isTimedOut now)).map (·.2) = ls at hmem
        unfold removeLeases
        rw [if_neg (by intro hx; rw [List.isEmpty_iff.1 hx] at hmem; cases hmem)]
        rcases hmiss with hmiss | ⟨single, hs, hmiss⟩
        · rw [if_pos (by rw [hmiss]; rfl)]
        · split
          · rfl
          · simp only
            cases hcol : collect (genDeleteLeaseCmds conf k.rules) ls with
            | err => rfl
            | panic => exact absurd hcol (collect_not_panic (fun l _ => genDelete_not_panic conf k.rules l))
            | ok cmds =>
              exfalso
              obtain ⟨rs, _, h6, h7⟩ := genDeletes_spec hn hcol
              have hin : some (genRuleComment (some a) single) ∈ rs.map (·.comment) := by
                rw [h7]
                refine List.mem_flatMap.2 ⟨l, hmem, List.mem_map.2 ⟨single, ?_, ?_⟩⟩
                · have : q = l.port := congrArg Prod.snd hkey
                  rw [← this]; exact hs
                · have : a = l.addr := congrArg Prod.fst hkey
                  rw [← this]
              obtain ⟨r, hr1, hr2⟩ := List.mem_map.1 hin
              exact hmiss r (h6 r hr1) hr2
      simp only [fwdStep, he] at hmid ⊢
      cases r with
      | panic => exact absurd rfl hnp
      | err => simp at hmid
      | ok u => exact ⟨h1.filter _, h2, hok ⟨_, hm, hto⟩ hrem rfl, tableOf_pruned h4 now⟩
  have h := fwdRun_inv hn hinv ops' hf'
  rw [fwdRun_append] at hr ⊢
  simp only [after_append] at hr ⊢
  generalize fwdRun conf (fwdRun conf s0 (ops ++ [.maintain now env])).2 ops' = x at *
  obtain ⟨h1, _, h3, h4⟩ := inv_running h hr
  rw [chainOk_accepts h1 h3 pkt]
  constructor
  · rintro (hx | ⟨e, he, hc⟩)
    · exact .inl hx
    · exact .inr ⟨_, _, _, (h4 e.1.1 e.1.2 e.2.timeout).2 ⟨e.2, he, rfl⟩, hc⟩
  · rintro (hx | ⟨a, p, e, hg, hc⟩)
    · exact .inl hx
    · obtain ⟨l, hm, _⟩ := (h4 a p e).1 hg
      exact .inr ⟨_, hm, hc⟩

/-- Somebody opens a port, then another program empties the chain. -/
def flushedHistory : List FwdOp :=
  [.request (.msg (FwMessage.newOpen examplePeer .Tcp 22)) (1 * second) true, .foreign ⟨[], 99⟩]

/-- **C70** is not true: the chain has been emptied and the client knocks again; it is told the port is open, and it is closed. -/
theorem C70_fails : ¬ C70_statement := by
  intro h
  have := h fwConf fwNames ⟨by decide, rfl, rfl, by decide, by decide⟩ fwKernel true fwStarted fwStarted_ok flushedHistory
    (.request (.msg (FwMessage.newOpen examplePeer .Tcp 22)) (2 * second) true) ⟨trivial, trivial, trivial, trivial⟩ (by decide +kernel)
    examplePeer (.Tcp 22) (2 * second) (by decide +kernel) ⟨examplePeer, .tcp, 22⟩ ⟨by decide +kernel, rfl, rfl⟩
  revert this
  decide +kernel

/-- C70: after the same flush a first request is effective; and after the expiry of the first grant the daemon's maintenance repairs the chain: the
other client's port, whose rule had been removed too, and the control port are open again. -/
example :
    chainAccepts fwNames (fwdRun fwConf fwStarted flushedHistory).2.kernel ⟨examplePeer, .tcp, 22⟩ = false ∧
    chainAccepts fwNames (fwdRun fwConf fwStarted flushedHistory).2.kernel ⟨examplePeer, .tcp, 5800⟩ = false ∧
    granted (.request (.msg (FwMessage.newOpen examplePeer .Tcp 443)) (2 * second) true)
      (fwdStep fwConf (fwdRun fwConf fwStarted flushedHistory).2 (.request (.msg (FwMessage.newOpen examplePeer .Tcp 443)) (2 * second) true)).1 =
      some (examplePeer, .Tcp 443, 2 * second) ∧
    Grants.none.after fwConf.nftTimeout (fwdRun fwConf fwStarted flushedHistory).1 examplePeer (.Tcp 443) = none ∧
    (let late := flushedHistory ++ [.request (.msg (FwMessage.newOpen examplePeer .Tcp 443)) (300 * second) true, .foreign ⟨[], 99⟩]
     let r := fwdRun fwConf fwStarted (late ++ [.maintain (602 * second) calmEnv])
     Grants.none.after fwConf.nftTimeout (fwdRun fwConf fwStarted late).1 examplePeer (.Tcp 22) = some (601 * second) ∧
     ownRules fwNames (fwdRun fwConf fwStarted late).2.kernel = [] ∧ r.2.phase = .running ∧
     chainAccepts fwNames r.2.kernel ⟨examplePeer, .tcp, 22⟩ = false ∧ chainAccepts fwNames r.2.kernel ⟨examplePeer, .tcp, 443⟩ = true ∧
     chainAccepts fwNames r.2.kernel ⟨examplePeer, .tcp, 5800⟩ = true) := by
  decide +kernel

end Letmein.Props
