import Verif.Spec.Reload
import Verif.Props.FirewallMore

/-!
# Property C86: after the ruleset has been reloaded

`doc/nftables.conf` begins with `flush ruleset`: loading it empties letmeinfwd's chain. letmeinfwd notices only when it wants to delete
the rule of an expired grant.
-/

namespace Letmein.Props

open Letmein Prog Spec

/-- What holds of the daemon whatever other programs do to the chain. -/
def TabInv (n : NftNames) (s : FwdState) (g : Grants) : Prop :=
  match s.phase with
  | .running => LeasesOk n s.fw.leases ∧ s.fw.shutdown = false ∧ TableOf s.fw.leases g
  | .stopping => LeasesOk n s.fw.leases ∧ s.fw.shutdown = false
  | .stopped => s.fw.shutdown = true
  | .crashed => False

theorem TabInv.of_inv {conf : Config} {n : NftNames} {s : FwdState} {g : Grants} (h : FwdInv conf n s g) : TabInv n s g := by
  unfold FwdInv at h
  unfold TabInv
  split <;> rename_i hp <;> rw [hp] at h
  · exact ⟨h.1, h.2.1, h.2.2.2⟩
  · exact ⟨h.1, h.2.1⟩
  · exact h
  · exact h

theorem applyCmds_adds_some (n : NftNames) (cs : List Content) (k : Kernel) : (applyCmds k (cs.map (addCmd n))).isSome = true := by
  induction cs generalizing k with
  | nil => rfl
  | cons c cs ih => exact ih _

/-- Outcome and leases of `open_port` do not depend on the ruleset. -/
theorem openPort_any_kernel {conf : Config} {n : NftNames} (hn : ChainOf conf n) (fw : NftFirewall) (k k0 : Kernel) (now : Nat) (a : IpAddr)
    (p : LeasePort) (ok : Bool) :
    (fw.openPort conf k now a p ok).1 = (fw.openPort conf k0 now a p ok).1 ∧ (fw.openPort conf k now a p ok).2.1 = (fw.openPort conf k0 now a p ok).2.1 := by
  unfold NftFirewall.openPort
  by_cases hd : fw.shutdown = true
  · simp [hd]
  · simp only [hd, if_false, Bool.false_eq_true]
    split
    · exact ⟨rfl, rfl⟩
    · cases hl : Lease.new conf now a p with
      | err => exact ⟨rfl, rfl⟩
      | panic => exact ⟨rfl, rfl⟩
      | ok l =>
        simp only [addLease]
        by_cases hs : Supported n.family l.addr
        · rw [genAddLeaseCmds_ok hn hs]
          have h1 := applyCmds_adds_some n (leaseContents n.family l) k
          have h2 := applyCmds_adds_some n (leaseContents n.family l) k0
          obtain ⟨k1, h1⟩ := Option.isSome_iff_exists.1 h1
          obtain ⟨k2, h2⟩ := Option.isSome_iff_exists.1 h2
          cases ok <;> simp [applyBatch, h1, h2]
        · rw [genAddLeaseCmds_err hn hs]
          exact ⟨rfl, rfl⟩

theorem kernelOk_empty (n : NftNames) : KernelOk n ⟨[], 0⟩ := ⟨by simp [ownRules], by simp [ownRules]⟩

/-- A request, whatever the ruleset. -/
theorem request_loose {conf : Config} {n : NftNames} (hn : ChainOf conf n) {fw : NftFirewall} (k : Kernel) (hl : LeasesOk n fw.leases)
    (hd : fw.shutdown = false) (rx : FwRecvOut) (now : Nat) (ok : Bool) :
    (∃ r reply, handleMessage conf fw k rx now ok = (r, reply, fw, k) ∧ r ≠ .panic ∧
      granted (.request rx now ok) reply = none ∧ reply ≠ some FwMessage.newAck) ∨
    (∃ a p fw' k', fwdDecide conf rx = .openPort a p ∧ handleMessage conf fw k rx now ok = (.ok (), some FwMessage.newAck, fw', k') ∧
      granted (.request rx now ok) (some FwMessage.newAck) = some (a, p, now) ∧ LeasesOk n fw'.leases ∧ fw'.shutdown = false ∧
      Renewed fw.leases fw'.leases (a, p) (now + conf.nftTimeout) ∧ ((∃ l, ((a, p), l) ∈ fw.leases) → k' = k)) := by
  unfold handleMessage
  split
  · exact .inl ⟨_, _, rfl, by simp, by cases rx <;> rfl, by simp⟩
  · refine .inl ⟨_, _, rfl, by simp, ?_, by simp [FwMessage.newNack, FwMessage.newAck]⟩
    cases rx <;> simp [granted, FwMessage.newNack]
  · rename_i a p hdec
    obtain ⟨m, t, port, rfl, hop, ha, hp, hsel, hck, hres, hne⟩ := fwdDecide_open hdec
    have hp' : conf.port.port ≠ p.port := by rw [hsel, selection_port]; exact fun h => hne h.symm
    have hany := openPort_any_kernel hn fw k ⟨[], 0⟩ now a p ok
    have hsame : (∃ l, ((a, p), l) ∈ fw.leases) → (fw.openPort conf k now a p ok).2.2 = k := by
      rintro ⟨l, hm⟩
      unfold NftFirewall.openPort
      rw [if_neg (by simp [hd])]
      simp only
      rw [if_pos (List.any_eq_true.2 ⟨_, hm, by simp⟩)]
    rcases openPort_cases hn hl (kernelOk_empty n) hd now a p ok hp' with ⟨fw', k', h1, h2, h3, h4, _, _, _, _, _, _⟩ | ⟨h1, _, _⟩
    · right
      rw [h1] at hany
      generalize hg : fw.openPort conf k now a p ok = x at hany hsame
      obtain ⟨r, fw1, k1⟩ := x
      simp only at hany
      obtain ⟨rfl, rfl⟩ := hany
      refine ⟨a, p, fw1, k1, hdec, rfl, ?_, h2, h3, h4, hsame⟩
      simp [granted, ha, hp, hsel, FwMessage.newAck]
    · left
      rw [h1] at hany
      have hk : (fw.openPort conf k now a p ok).1 = .err → (fw.openPort conf k now a p ok).2.2 = k := by
        unfold NftFirewall.openPort
        rw [if_neg (by simp [hd])]
        simp only
        split
        · intro h; cases h
        · cases Lease.new conf now a p with
          | err => intro _; rfl
          | panic => intro _; rfl
          | ok l =>
            simp only [addLease]
            cases genAddLeaseCmds conf l with
            | err => intro _; rfl
            | panic => intro h; cases h
            | ok cmds =>
              simp only [applyBatch]
              cases ok
              · intro _; rfl
              · simp only [if_true]
                cases applyCmds k cmds with
                | none => intro _; rfl
                | some k' => intro h; cases h
      generalize hg : fw.openPort conf k now a p ok = x at hany hk
      obtain ⟨r, fw1, k1⟩ := x
      simp only at hany
      obtain ⟨rfl, rfl⟩ := hany
      have hk := hk rfl
      simp only at hk
      subst hk
      refine ⟨_, _, rfl, by simp, ?_, by simp [FwMessage.newNack, FwMessage.newAck]⟩
      simp [granted, FwMessage.newNack]

/-- Maintenance, whatever the ruleset. -/
theorem maintain_loose {conf : Config} {n : NftNames} (hn : ChainOf conf n) {fw : NftFirewall} (k : Kernel) (hl : LeasesOk n fw.leases)
    (hd : fw.shutdown = false) (now : Nat) (env : NftEnv) :
    ∃ r k', fw.maintain conf k now env = (r, { fw with leases := fw.leases.filter (fun e => !e.2.isTimedOut now) }, k') ∧ r ≠ .panic ∧
      ((∀ e ∈ fw.leases, now < e.2.timeout) → r = .ok () ∧ k' = k) ∧
      ((∃ e ∈ fw.leases, e.2.timeout ≤ now ∧ ∃ sp ∈ e.2.port.singles, ∀ x ∈ ownRules n k, x.comment ≠ some (genRuleComment (some e.2.addr) sp)) →
        env.rebuildOk = true → r = .ok () ∧ ChainOk conf n (fw.leases.filter (fun e => !e.2.isTimedOut now)) k') := by
  unfold NftFirewall.maintain
  rw [if_neg (by simp [hd])]
  by_cases he : (pruneAllLeaseTimeouts now fw.leases).2.isEmpty = true
  · simp only [he, if_true]
    refine ⟨_, _, rfl, by simp, fun _ => ⟨rfl, rfl⟩, ?_⟩
    rintro ⟨e, hm, ht, _⟩
    have he : fw.leases.filter (fun e => e.2.isTimedOut now) = [] := by simpa [pruneAllLeaseTimeouts] using he
    have : e ∈ fw.leases.filter (fun e => e.2.isTimedOut now) := List.mem_filter.2 ⟨hm, by simp [Lease.isTimedOut, ht]⟩
    rw [he] at this
    cases this
  · simp only [he, if_false, Bool.false_eq_true]
    have hex : ¬ ∀ e ∈ fw.leases, now < e.2.timeout := by
      intro hall
      apply he
      have : fw.leases.filter (fun e => e.2.isTimedOut now) = [] := by
        rw [List.filter_eq_nil_iff]
        intro e hm
        have := hall e hm
        simp [Lease.isTimedOut]
        omega
      simp [pruneAllLeaseTimeouts, this]
    have hrm : (removeLeases conf (pruneAllLeaseTimeouts now fw.leases).2 k env).1 ≠ .panic := by
      unfold removeLeases
      split
      · simp
      · split
        · simp
        · cases hcol : collect (genDeleteLeaseCmds conf k.rules) (pruneAllLeaseTimeouts now fw.leases).2 with
          | ok cmds =>
            simp only [applyBatch]
            split
            · split <;> simp
            · simp
          | err => simp
          | panic => exact absurd hcol (collect_not_panic (fun l _ => genDelete_not_panic conf k.rules l))
    have hmiss : (∃ e ∈ fw.leases, e.2.timeout ≤ now ∧ ∃ sp ∈ e.2.port.singles, ∀ x ∈ ownRules n k, x.comment ≠ some (genRuleComment (some e.2.addr) sp)) →
        (removeLeases conf (pruneAllLeaseTimeouts now fw.leases).2 k env).1 = .err := by
      rintro ⟨e, hm, ht, sp, hsp, hno⟩
      unfold removeLeases
      rw [if_neg he]
      split
      · rfl
      · cases hcol : collect (genDeleteLeaseCmds conf k.rules) (pruneAllLeaseTimeouts now fw.leases).2 with
        | ok cmds =>
          obtain ⟨rs, _, h2, h3⟩ := genDeletes_spec hn hcol
          have hin : some (genRuleComment (some e.2.addr) sp) ∈ rs.map (·.comment) := by
            rw [h3]
            refine List.mem_flatMap.2 ⟨e.2, ?_, List.mem_map.2 ⟨sp, hsp, rfl⟩⟩
            exact List.mem_map.2 ⟨e, List.mem_filter.2 ⟨hm, by simp [Lease.isTimedOut, ht]⟩, rfl⟩
          obtain ⟨x, hx, hc⟩ := List.mem_map.1 hin
          exact absurd hc (hno x (h2 x hx))
        | err => rfl
        | panic => exact absurd hcol (collect_not_panic (fun l _ => genDelete_not_panic conf k.rules l))
    generalize removeLeases conf (pruneAllLeaseTimeouts now fw.leases).2 k env = x at hrm hmiss
    obtain ⟨r, k'⟩ := x
    cases r with
    | panic => exact absurd rfl hrm
    | ok u => exact ⟨_, _, rfl, by simp, fun h => absurd h hex, fun h => absurd (hmiss h) (by simp)⟩
    | err =>
      simp only
      refine ⟨_, _, rfl, ?_, fun h => absurd h hex, ?_⟩
      · rcases fullRebuild_cases hn (fw := { fw with leases := fw.leases.filter (fun e => !e.2.isTimedOut now) })
          (hl.filter _).supp hd (env.beforeRebuild k') env.rebuildOk with ⟨_, h3, _⟩ | h3
        · have h3 : (fullRebuild conf { fw with leases := (pruneAllLeaseTimeouts now fw.leases).1 } (env.beforeRebuild k') env.rebuildOk).1 = _ := h3
          rw [h3]; simp
        · have h3 : fullRebuild conf { fw with leases := (pruneAllLeaseTimeouts now fw.leases).1 } (env.beforeRebuild k') env.rebuildOk = _ := h3
          rw [h3]; simp
      · intro _ hok
        rcases fullRebuild_cases hn (fw := { fw with leases := fw.leases.filter (fun e => !e.2.isTimedOut now) })
          (hl.filter _).supp hd (env.beforeRebuild k') env.rebuildOk with ⟨_, h3, h4, _⟩ | h3
        · exact ⟨h3, h4⟩
        · have h5 := fullRebuild_ok hn (fw := { fw with leases := fw.leases.filter (fun e => !e.2.isTimedOut now) }) (hl.filter _).supp hd (env.beforeRebuild k')
          rw [hok] at h3
          rw [h3] at h5
          cases h5

theorem TableOf.maintained {leases : LeaseMap} {g : Grants} (h4 : TableOf leases g) (t now : Nat) (env : NftEnv) (r : Option FwMessage)
    (hr : granted (.maintain now env) r = none) :
    TableOf (leases.filter (fun e => !e.2.isTimedOut now)) (g.step t (.maintain now env) r) := by
  intro a p e
  have hg := h4 a p
  simp only [Grants.step, hr]
  constructor
  · intro hx
    split at hx
    · rename_i e' he'
      split at hx
      · rename_i hlt
        injection hx with hx
        subst hx
        obtain ⟨l, hm, ht⟩ := (hg e').1 he'
        refine ⟨l, List.mem_filter.2 ⟨hm, ?_⟩, ht⟩
        simp only [Lease.isTimedOut, ht]
        simpa using hlt
      · cases hx
    · cases hx
  · rintro ⟨l, hm, ht⟩
    obtain ⟨hm, hto⟩ := List.mem_filter.1 hm
    have := (hg e).2 ⟨l, hm, ht⟩
    rw [this]
    have hlt : now < e := by simpa [Lease.isTimedOut, ht] using hto
    simp [hlt]

theorem tabInv_step {conf : Config} {n : NftNames} (hn : ChainOf conf n) {s : FwdState} {g : Grants} (h : TabInv n s g) (op : FwdOp)
    (hf : ∀ l, op = .reorder l → l.Perm s.fw.leases) :
    TabInv n (fwdStep conf s op).2 (g.step conf.nftTimeout op (fwdStep conf s op).1) := by
  obtain ⟨phase, fw, k⟩ := s
  cases op with
  | foreign k' => cases phase <;> simp only [fwdStep, TabInv, Grants.step, granted] at h ⊢ <;> exact h
  | reorder l =>
    replace hf : l.Perm fw.leases := hf l rfl
    cases phase <;> simp only [fwdStep, TabInv, Grants.step, granted] at h ⊢
    · refine ⟨h.1.perm hf, h.2.1, ?_⟩
      intro a p e
      rw [h.2.2 a p e]
      exact ⟨fun ⟨l', hm, ht⟩ => ⟨l', hf.symm.subset hm, ht⟩, fun ⟨l', hm, ht⟩ => ⟨l', hf.subset hm, ht⟩⟩
    · exact ⟨h.1.perm hf, h.2⟩
    · exact h
  | terminate ok =>
    cases phase with
    | stopped => exact h
    | crashed => exact h.elim
    | running =>
      simp only [TabInv] at h
      simp only [fwdStep, NftFirewall.doShutdown, h.2.1, if_false, Bool.false_eq_true, fullRebuild_shutdown hn (fw := { leases := [], shutdown := true }) rfl]
      cases ok <;> simp [TabInv]
    | stopping =>
      simp only [TabInv] at h
      simp only [fwdStep, NftFirewall.doShutdown, h.2, if_false, Bool.false_eq_true, fullRebuild_shutdown hn (fw := { leases := [], shutdown := true }) rfl]
      cases ok <;> simp [TabInv]
  | request rx now ok =>
    cases phase with
    | stopped => exact h
    | crashed => exact h.elim
    | running =>
      simp only [TabInv] at h
      obtain ⟨h1, h2, h4⟩ := h
      rcases request_loose hn k h1 h2 rx now ok with ⟨r, reply, he, hnp, hg, _⟩ | ⟨a, p, fw', k', _, he, hg, h5, h6, h7, _⟩
      · simp only [fwdStep, he]
        cases r with
        | panic => exact absurd rfl hnp
        | ok u => simp only [TabInv, Grants.step, hg]; exact ⟨h1, h2, h4⟩
        | err => simp only [TabInv, Grants.step, hg]; exact ⟨h1, h2, h4⟩
      · simp only [fwdStep, he, TabInv, Grants.step, hg]
        exact ⟨h5, h6, h4.renewed h7⟩
    | stopping =>
      simp only [TabInv] at h
      obtain ⟨h1, h2⟩ := h
      rcases request_loose hn k h1 h2 rx now ok with ⟨r, reply, he, hnp, hg, _⟩ | ⟨a, p, fw', k', _, he, hg, h5, h6, h7, _⟩
      · simp only [fwdStep, he]
        cases r with
        | panic => exact absurd rfl hnp
        | ok u => simp only [TabInv]; exact ⟨h1, h2⟩
        | err => simp only [TabInv]; exact ⟨h1, h2⟩
      · simp only [fwdStep, he, TabInv]
        exact ⟨h5, h6⟩
  | maintain now env =>
    cases phase with
    | stopping => simp only [fwdStep]; exact h
    | stopped => exact h
    | crashed => exact h.elim
    | running =>
      simp only [TabInv] at h
      obtain ⟨h1, h2, h4⟩ := h
      obtain ⟨r, k', he, hnp, _⟩ := maintain_loose hn k h1 h2 now env
      simp only [fwdStep, he]
      cases r with
      | panic => exact absurd rfl hnp
      | ok u => simp only [TabInv]; exact ⟨h1.filter _, h2, TableOf.maintained h4 _ _ _ _ rfl⟩
      | err => simp only [TabInv]; exact ⟨h1.filter _, h2⟩

theorem tabInv_run {conf : Config} {n : NftNames} (hn : ChainOf conf n) {s : FwdState} {g : Grants} (h : TabInv n s g)
    (ops : List FwdOp) (hf : Loose conf s ops) : TabInv n (fwdRun conf s ops).2 (g.after conf.nftTimeout (fwdRun conf s ops).1) := by
  induction ops generalizing s g with
  | nil => exact h
  | cons op rest ih => exact ih (tabInv_step hn h op hf.1) hf.2

theorem idle_step {conf : Config} {n : NftNames} (hn : ChainOf conf n) {s : FwdState} {g : Grants} (h : TabInv n s g) (hp : s.phase = .running)
    (op : FwdOp) (hi : IdleOp n g s op) :
    ownRules n (fwdStep conf s op).2.kernel = ownRules n s.kernel ∧ (fwdStep conf s op).2.phase = .running := by
  obtain ⟨phase, fw, k⟩ := s
  subst hp
  simp only [TabInv] at h
  obtain ⟨h1, h2, h4⟩ := h
  cases op with
  | foreign k' => exact ⟨hi, rfl⟩
  | reorder l => exact ⟨rfl, rfl⟩
  | terminate ok => exact hi.elim
  | request rx now ok =>
    rcases request_loose hn k h1 h2 rx now ok with ⟨r, reply, he, hnp, hg, _⟩ | ⟨a, p, fw', k', _, he, hg, h5, h6, h7, h8⟩
    · simp only [fwdStep, he]
      cases r with
      | panic => exact absurd rfl hnp
      | ok u => simp
      | err => simp
    · obtain ⟨e, hge⟩ := Option.isSome_iff_exists.1 (hi a p now hg)
      obtain ⟨l, hm, _⟩ := (h4 a p e).1 hge
      simp only [fwdStep, he, h8 ⟨l, hm⟩, and_self]
  | maintain now env =>
    obtain ⟨r, k', he, hnp, hlive, _⟩ := maintain_loose hn k h1 h2 now env
    obtain ⟨rfl, rfl⟩ := hlive (fun e hm => hi e.1.1 e.1.2 e.2.timeout ((h4 _ _ _).2 ⟨e.2, hm, rfl⟩))
    simp only [fwdStep, he, and_self]

theorem IdleOp.loose {n : NftNames} {g : Grants} {s : FwdState} {op : FwdOp} (h : IdleOp n g s op) : ∀ l, op = .reorder l → l.Perm s.fw.leases := by
  rintro l rfl; exact h

theorem idle_run {conf : Config} {n : NftNames} (hn : ChainOf conf n) {s : FwdState} {g : Grants} (h : TabInv n s g) (hp : s.phase = .running)
    (ops : List FwdOp) (hi : Idle conf n g s ops) :
    ownRules n (fwdRun conf s ops).2.kernel = ownRules n s.kernel ∧ (fwdRun conf s ops).2.phase = .running := by
  induction ops generalizing s g with
  | nil => exact ⟨rfl, hp⟩
  | cons op rest ih =>
    obtain ⟨h1, h2⟩ := idle_step hn h hp op hi.1
    obtain ⟨h3, h4⟩ := ih (tabInv_step hn h op (IdleOp.loose hi.1)) h2 hi.2
    exact ⟨h3.trans h1, h4⟩

theorem tabInv_running {n : NftNames} {s : FwdState} {g : Grants} (h : TabInv n s g) (hp : s.phase = .running) :
    LeasesOk n s.fw.leases ∧ s.fw.shutdown = false ∧ TableOf s.fw.leases g := by
  unfold TabInv at h
  rw [hp] at h
  exact h

/-! ## C86 -/

/-- **C86** (partial: only if the grant whose rule is gone expires; otherwise see `C86_not_restored`). Other programs may have done anything to the
ruleset, also to letmeinfwd's chain. If at a maintenance some grant has expired and one of its rules is no longer there, and `nft` accepts the new rules, then
from then on the chain accepts again exactly what the control port and the grants want. -/
theorem C86_restored_partial (conf : Config) (n : NftNames) (hn : ChainOf conf n) (k0 : Kernel) (ok0 : Bool) (s0 : FwdState) (h0 : fwdStart conf k0 ok0 = some s0)
    (ops : List FwdOp) (hf : Loose conf s0 ops) (hr : (fwdRun conf s0 ops).2.phase = .running)
    (now : Nat) (env : NftEnv) (hok : env.rebuildOk = true) (a : IpAddr) (p : LeasePort) (e : Nat)
    (hg : Grants.none.after conf.nftTimeout (fwdRun conf s0 ops).1 a p = some e) (hexp : e ≤ now)
    (sp : SinglePort) (hsp : sp ∈ p.singles) (hgone : ∀ r ∈ ownRules n (fwdRun conf s0 ops).2.kernel, r.comment ≠ some (genRuleComment (some a) sp))
    (later : List FwdOp) (hf2 : Fair conf n (fwdRun conf s0 (ops ++ [.maintain now env])).2 later)
    (hr2 : (fwdRun conf s0 (ops ++ .maintain now env :: later)).2.phase = .running) (pkt : Packet) :
    chainAccepts n (fwdRun conf s0 (ops ++ .maintain now env :: later)).2.kernel pkt = true ↔
      (familySees n.family pkt.src = true ∧ toControlPort conf pkt) ∨
      ∃ addr q e', Grants.none.after conf.nftTimeout (fwdRun conf s0 (ops ++ .maintain now env :: later)).1 addr q = some e' ∧ covers addr q pkt := by
  obtain ⟨hp0, n', hn', hi⟩ := fwdStart_inv h0
  obtain rfl := chainOf_unique hn hn'
  have ht := tabInv_run hn (TabInv.of_inv hi) ops hf
  rw [show ops ++ FwdOp.maintain now env :: later = (ops ++ [.maintain now env]) ++ later from by simp, fwdRun_append] at hr2 ⊢
  have hinv : FwdInv conf n (fwdRun conf s0 (ops ++ [.maintain now env])).2
      (Grants.none.after conf.nftTimeout (fwdRun conf s0 (ops ++ [.maintain now env])).1) := by
    rw [fwdRun_append, after_append]
    generalize fwdRun conf s0 ops = q at *
    obtain ⟨hist, s⟩ := q
    obtain ⟨h1, h2, h4⟩ := tabInv_running ht hr
    obtain ⟨phase, fw, k⟩ := s
    simp only at hr h1 h2 h4 hgone
    subst hr
    obtain ⟨r, k', he, hnp, _, hres⟩ := maintain_loose hn k h1 h2 now env
    obtain ⟨l, hm, hlt⟩ := (h4 a p e).1 hg
    have hkey := h1.keys _ hm
    simp only [Prod.mk.injEq] at hkey
    obtain ⟨rfl, hc⟩ := hres ⟨_, hm, by simp only [hlt]; exact hexp, sp, by simp only [← hkey.2]; exact hsp, by simp only [← hkey.1]; exact hgone⟩ hok
    simp only [fwdRun, fwdStep, he, Grants.after]
    exact ⟨h1.filter _, h2, hc, TableOf.maintained h4 _ _ _ _ rfl⟩
  have hfin := fwdRun_inv hn hinv later hf2
  rw [← after_append] at hfin
  generalize fwdRun conf s0 (ops ++ [.maintain now env]) = q at *
  generalize fwdRun conf q.2 later = q2 at *
  obtain ⟨h1, _, h3, h4⟩ := inv_running hfin hr2
  rw [chainOk_accepts h1 h3 pkt]
  constructor
  · rintro (hx | ⟨e, he, hc⟩)
    · exact .inl hx
    · exact .inr ⟨_, _, _, (h4 e.1.1 e.1.2 e.2.timeout).2 ⟨e.2, he, rfl⟩, hc⟩
  · rintro (hx | ⟨a, p, e, hg, hc⟩)
    · exact .inl hx
    · obtain ⟨l, hm, _⟩ := (h4 a p e).1 hg
      exact .inr ⟨_, hm, hc⟩

/-- **C86** (not before). Until a grant expires or a new one is made the chain stays as other programs have left it, however often maintenance runs and however often
the users who already have a grant knock again. -/
theorem C86_not_restored (conf : Config) (n : NftNames) (hn : ChainOf conf n) (k0 : Kernel) (ok0 : Bool) (s0 : FwdState) (h0 : fwdStart conf k0 ok0 = some s0)
    (ops : List FwdOp) (hf : Loose conf s0 ops) (hr : (fwdRun conf s0 ops).2.phase = .running)
    (later : List FwdOp) (hi : Idle conf n (Grants.none.after conf.nftTimeout (fwdRun conf s0 ops).1) (fwdRun conf s0 ops).2 later) :
    (fwdRun conf s0 (ops ++ later)).2.phase = .running ∧
    ownRules n (fwdRun conf s0 (ops ++ later)).2.kernel = ownRules n (fwdRun conf s0 ops).2.kernel := by
  obtain ⟨hp0, n', hn', hinv⟩ := fwdStart_inv h0
  obtain rfl := chainOf_unique hn hn'
  have h := idle_run hn (tabInv_run hn (TabInv.of_inv hinv) ops hf) hr later hi
  rw [fwdRun_append]
  exact ⟨h.2, h.1⟩

/-- **C86** (locked out for good). No grants are left and another program has emptied the chain: then no packet passes it, not even to the control port, after any number of
maintenance runs. -/
theorem C86_locked_out (conf : Config) (n : NftNames) (hn : ChainOf conf n) (k0 : Kernel) (ok0 : Bool) (s0 : FwdState) (h0 : fwdStart conf k0 ok0 = some s0)
    (ops : List FwdOp) (hf : Loose conf s0 ops) (hr : (fwdRun conf s0 ops).2.phase = .running)
    (hg : ∀ a p, Grants.none.after conf.nftTimeout (fwdRun conf s0 ops).1 a p = none) (hempty : ownRules n (fwdRun conf s0 ops).2.kernel = [])
    (runs : List (Nat × NftEnv)) (pkt : Packet) :
    (fwdRun conf s0 (ops ++ runs.map (fun x => FwdOp.maintain x.1 x.2))).2.phase = .running ∧
    chainAccepts n (fwdRun conf s0 (ops ++ runs.map (fun x => FwdOp.maintain x.1 x.2))).2.kernel pkt = false := by
  have hidle : ∀ (g : Grants) (s : FwdState), (∀ a p, g a p = none) → Idle conf n g s (runs.map (fun x => FwdOp.maintain x.1 x.2)) := by
    induction runs with
    | nil => intro _ _ _; trivial
    | cons x rest ih =>
      intro g s hg
      refine ⟨fun a p e h => (by rw [hg] at h; cases h), ih _ _ fun a p => ?_⟩
      simp [Grants.step, granted, hg]
  obtain ⟨h1, h2⟩ := C86_not_restored conf n hn k0 ok0 s0 h0 ops hf hr _ (hidle _ _ hg)
  refine ⟨h1, ?_⟩
  simp [chainAccepts, h2, hempty]

/-- **C86** (acknowledged but not open). A user's grant still runs, but its rule may be gone. Whatever the state of the chain and of `nft`, the same request is acknowledged again,
and the ruleset stays as it is. -/
theorem C86_repeat_acked (conf : Config) (n : NftNames) (hn : ChainOf conf n) (k0 : Kernel) (ok0 : Bool) (s0 : FwdState) (h0 : fwdStart conf k0 ok0 = some s0)
    (ops : List FwdOp) (hf : Loose conf s0 ops) (hr : (fwdRun conf s0 ops).2.phase = .running)
    (rx : FwRecvOut) (t : Nat) (ok : Bool) (reply : Option FwMessage) (hin : (FwdOp.request rx t ok, reply) ∈ (fwdRun conf s0 ops).1)
    (a : IpAddr) (p : LeasePort) (hgr : granted (.request rx t ok) reply = some (a, p, t))
    (hg : (Grants.none.after conf.nftTimeout (fwdRun conf s0 ops).1 a p).isSome) (now : Nat) (nftOk : Bool) :
    (fwdStep conf (fwdRun conf s0 ops).2 (.request rx now nftOk)).1 = some FwMessage.newAck ∧
    (fwdStep conf (fwdRun conf s0 ops).2 (.request rx now nftOk)).2.kernel = (fwdRun conf s0 ops).2.kernel := by
  obtain ⟨hp0, n', hn', hinv⟩ := fwdStart_inv h0
  obtain rfl := chainOf_unique hn hn'
  obtain ⟨h1, h2, h4⟩ := tabInv_running (tabInv_run hn (TabInv.of_inv hinv) ops hf) hr
  obtain ⟨e, hge⟩ := Option.isSome_iff_exists.1 hg
  obtain ⟨l, hm, _⟩ := (h4 a p e).1 hge
  -- the request passes the checks, as it did before
  have hdec : fwdDecide conf rx = .openPort a p := by
    obtain ⟨s', hs'⟩ := mem_fwdRun hin
    simp only at hs'
    obtain ⟨phase, fw, k⟩ := s'
    have hno : reply ≠ none := by
      rintro rfl
      cases rx <;> simp [granted] at hgr
    have : ∃ q, handleMessage conf fw k rx t ok = q ∧ q.2.1 = reply := by
      cases phase with
      | running =>
        refine ⟨_, rfl, ?_⟩
        simp only [fwdStep] at hs'
        generalize handleMessage conf fw k rx t ok = q at hs'
        obtain ⟨r, rep, fw', k'⟩ := q
        cases r
        · exact hs'.symm
        · exact hs'.symm
        · exact absurd hs' hno
      | stopping =>
        refine ⟨_, rfl, ?_⟩
        simp only [fwdStep] at hs'
        generalize handleMessage conf fw k rx t ok = q at hs'
        obtain ⟨r, rep, fw', k'⟩ := q
        cases r
        · exact hs'.symm
        · exact hs'.symm
        · exact absurd hs' hno
      | stopped => exact absurd hs' hno
      | crashed => exact absurd hs' hno
    obtain ⟨q, hq, hrep⟩ := this
    unfold handleMessage at hq
    split at hq
    · subst hq; exact absurd hrep.symm hno
    · subst hq
      simp only at hrep
      subst hrep
      cases rx <;> simp [granted, FwMessage.newNack] at hgr
    · rename_i a' p' hdec
      obtain ⟨m, ty, port, rfl, _, ha, hp, hsel, _⟩ := fwdDecide_open hdec
      cases reply with
      | none => exact absurd rfl hno
      | some r =>
        simp only [granted, ha, hp] at hgr
        split at hgr
        · simp only [Option.some.injEq, Prod.mk.injEq] at hgr
          rw [hdec, ← hgr.1, ← hgr.2.1, hsel]
        · cases hgr
  generalize fwdRun conf s0 ops = q at *
  obtain ⟨hist, ⟨phase, fw, k⟩⟩ := q
  simp only at hr h1 h2 h4 hm
  subst hr
  have hop : fw.openPort conf k now a p nftOk = (.ok (), { fw with leases := leaseUpdate fw.leases (a, p) (fun l => l.refreshTimeout conf now) }, k) := by
    unfold NftFirewall.openPort
    rw [if_neg (by simp [h2])]
    simp only
    rw [if_pos (List.any_eq_true.2 ⟨_, hm, by simp⟩)]
  simp only [fwdStep, handleMessage, hdec, hop, and_self]

/-! ## Concrete cases -/

/-- The ruleset of `fwKernel` is loaded anew: the chain is empty. -/
def reloadedKernel : Kernel := { rules := [{ family := .INet, table := "filter".toList, chain := "INPUT".toList, handle := 30, expr := [.accept], comment := none }], gen := 40 }

/-- Opens port 22 for the example peer. -/
def openSsh : FwRecvOut := .msg (FwMessage.newOpen examplePeer .Tcp 22)

/-- Without grants the control port stays closed after the reload. -/
example : Loose fwConf fwStarted [.foreign reloadedKernel] ∧ (fwdRun fwConf fwStarted [.foreign reloadedKernel]).2.phase = .running ∧
    (∀ a p, Grants.none.after fwConf.nftTimeout (fwdRun fwConf fwStarted [.foreign reloadedKernel]).1 a p = none) ∧
    ownRules fwNames (fwdRun fwConf fwStarted [.foreign reloadedKernel]).2.kernel = [] ∧
    toControlPort fwConf ⟨examplePeer, .tcp, 5800⟩ ∧ chainAccepts fwNames fwStarted.kernel ⟨examplePeer, .tcp, 5800⟩ = true :=
  ⟨⟨(by intro l h; cases h), trivial⟩, by decide +kernel, fun _ _ => rfl, by decide +kernel, ⟨rfl, .inl ⟨rfl, rfl⟩⟩, by decide +kernel⟩

/-- A grant whose rule has been flushed: the knock is acknowledged again but the port stays closed; when the grant has expired the control port comes back. -/
example :
    let before : List FwdOp := [.request openSsh 5 true, .foreign reloadedKernel]
    let idle : List FwdOp := [.maintain (10 * second) calmEnv, .request openSsh (20 * second) true, .maintain (30 * second) calmEnv]
    let s := (fwdRun fwConf fwStarted (before ++ idle)).2
    (fwdRun fwConf fwStarted (before ++ idle)).1.map (·.2) = [some FwMessage.newAck, none, none, some FwMessage.newAck, none] ∧
    chainAccepts fwNames s.kernel ⟨examplePeer, .tcp, 22⟩ = false ∧ chainAccepts fwNames s.kernel ⟨examplePeer, .tcp, 5800⟩ = false ∧
    chainAccepts fwNames (fwdStep fwConf s (.maintain (5000 * second) calmEnv)).2.kernel ⟨examplePeer, .tcp, 5800⟩ = true ∧
    (fwdStep fwConf s (.maintain (5000 * second) calmEnv)).2.phase = .running := by
  decide +kernel

/-- The hypotheses of `C86_restored_partial`. -/
example : Loose fwConf fwStarted [.request openSsh 5 true, .foreign reloadedKernel] ∧ calmEnv.rebuildOk = true ∧
    Grants.none.after fwConf.nftTimeout (fwdRun fwConf fwStarted [.request openSsh 5 true, .foreign reloadedKernel]).1 examplePeer (.Tcp 22) =
      some (5 + fwConf.nftTimeout) ∧ 5 + fwConf.nftTimeout ≤ 5000 * second ∧
    (∀ r ∈ ownRules fwNames (fwdRun fwConf fwStarted [.request openSsh 5 true, .foreign reloadedKernel]).2.kernel,
      r.comment ≠ some (genRuleComment (some examplePeer) (.Tcp 22))) ∧
    (fwdRun fwConf fwStarted ([.request openSsh 5 true, .foreign reloadedKernel] ++ FwdOp.maintain (5000 * second) calmEnv :: [])).2.phase = .running :=
  ⟨⟨(by intro l h; cases h), ⟨(by intro l h; cases h), trivial⟩⟩, rfl, by decide +kernel, by decide +kernel,
    (by rw [show ownRules fwNames (fwdRun fwConf fwStarted [.request openSsh 5 true, .foreign reloadedKernel]).2.kernel = [] from by decide +kernel]; intro r h; cases h),
    by decide +kernel⟩

end Letmein.Props
