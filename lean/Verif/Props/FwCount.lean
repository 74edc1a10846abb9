import Verif.Props.FirewallMore
import Verif.Model.FwCount

/-!
# C78: the printed rule count
-/

namespace Letmein.Props

open Letmein Prog Spec

/-- Rules of the enabled control port. -/
def ctrlCount (conf : Config) : Nat := (if conf.port.tcp then 1 else 0) + (if conf.port.udp then 1 else 0)

theorem rebuildNum_running {conf : Config} {n : NftNames} (hn : ChainOf conf n) {fw : NftFirewall} (hd : fw.shutdown = false) (num : Nat) :
    rebuildNum conf fw num = ctrlCount conf := by
  unfold rebuildNum ctrlCount
  rw [names_get_iff.2 hn]
  cases conf.port.tcp <;> cases conf.port.udp <;> simp [hd, genAddLeaseCmd_none hn]

theorem rebuildNum_shutdown {conf : Config} {n : NftNames} (hn : ChainOf conf n) {fw : NftFirewall} (hd : fw.shutdown = true) (num : Nat) :
    rebuildNum conf fw num = 0 := by
  unfold rebuildNum
  rw [names_get_iff.2 hn]
  simp [hd]

theorem foldl_count (leases : LeaseMap) (num : Nat) :
    leases.foldl (fun count e => count + match e.2.port with
      | .Tcp _ => 1
      | .Udp _ => 1
      | .TcpUdp _ => 2) num = num + (leases.map (fun e => ruleCount e.2.port)).sum := by
  induction leases generalizing num with
  | nil => rfl
  | cons e rest ih =>
    rw [List.foldl_cons, ih, List.map_cons, List.sum_cons]
    cases hp : e.2.port <;> simp only [ruleCount] <;> omega

theorem printed_sum {conf : Config} {num c : Nat} {leases : LeaseMap} (h : printTotalRuleCount conf num leases = some c) :
    c = num + (leases.map (fun e => ruleCount e.2.port)).sum := by
  unfold printTotalRuleCount at h
  split at h
  · injection h with h
    subst h
    exact foldl_count leases num
  · cases h

theorem chain_length {conf : Config} {n : NftNames} {leases : LeaseMap} {k : Kernel} (h : ChainOk conf n leases k) :
    (ownRules n k).length = ctrlCount conf + (leases.map (fun e => ruleCount e.2.port)).sum := by
  have hlen := h.rules.length_eq
  simp only [ownContents, List.length_map, wanted, List.length_append, ctrlContents] at hlen
  rw [hlen]
  congr 1
  · unfold ctrlCount; cases conf.port.tcp <;> cases conf.port.udp <;> rfl
  · clear hlen h
    induction leases with
    | nil => rfl
    | cons e rest ih =>
      simp only [List.flatMap_cons, List.length_append, List.map_cons, List.sum_cons, ih]
      congr 1
      simp only [leaseContents, List.length_map]
      cases e.2.port <;> rfl

/-- The field is right until the firewall is shut down. -/
def NumOk (conf : Config) (s : FwdState) (num : Nat) : Prop := s.phase = .running ∨ s.phase = .stopping → num = ctrlCount conf

theorem countStep_num {conf : Config} {n : NftNames} (hn : ChainOf conf n) {s : FwdState} {g : Grants} (h : FwdInv conf n s g) {num : Nat} (hnum : NumOk conf s num)
    (op : FwdOp) (hf : OpFair n s op) : NumOk conf (fwdStep conf s op).2 (countStep conf s num op).2 := by
  obtain ⟨phase, fw, k⟩ := s
  intro hp
  have hsd : phase = .running ∨ phase = .stopping → fw.shutdown = false := by
    rintro (rfl | rfl) <;> simp only [FwdInv] at h <;> exact h.2.1
  cases op with
  | foreign k' => exact hnum hp
  | reorder l => exact hnum hp
  | terminate ok =>
    exfalso
    cases phase <;> simp only [fwdStep] at hp
    all_goals first
      | (revert hp; simp; done)
      | (revert hp; split <;> simp)
  | request rx now ok =>
    cases phase <;> simp only [fwdStep, countStep] at hp ⊢
    case stopped => simp at hp
    case crashed => simp at hp
    all_goals
      have := hnum (by simp)
      split
      · split
        · exact this
        · split <;> exact this
      · exact this
  | maintain now env =>
    cases phase <;> simp only [fwdStep, countStep] at hp ⊢
    case stopped => simp at hp
    case crashed => simp at hp
    case stopping => exact hnum (by simp)
    case running =>
      have hd := hsd (.inl rfl)
      have := hnum (by simp)
      rw [if_neg (by simp [hd])]
      split
      · exact this
      · split
        · exact this
        · exact this
        · split <;> exact rebuildNum_running hn hd _

theorem countRun_num {conf : Config} {n : NftNames} (hn : ChainOf conf n) (ops : List FwdOp) : ∀ {s : FwdState} {g : Grants}, FwdInv conf n s g → ∀ {num : Nat},
    NumOk conf s num → Fair conf n s ops → NumOk conf (fwdRun conf s ops).2 (countRun conf s num ops) := by
  induction ops with
  | nil => intro s g _ num h _; exact h
  | cons op rest ih =>
    intro s g h num hnum hf
    exact ih (fwdStep_inv hn h op hf.1) (countStep_num hn h hnum op hf.1) hf.2

/-- What is printed at the end of an operation belongs to the leases there are then. -/
theorem countStep_printed {conf : Config} {s : FwdState} {num c : Nat} {op : FwdOp} (h : (countStep conf s num op).1 = some c) :
    printTotalRuleCount conf (countStep conf s num op).2 (fwdStep conf s op).2.fw.leases = some c ∧
    ((fwdStep conf s op).2.phase = s.phase ∨ ∃ ok, op = .terminate ok ∧ (s.phase = .running ∨ s.phase = .stopping) ∧ s.fw.shutdown = false ∧
      (fullRebuild conf { leases := [], shutdown := true } s.kernel ok).1 = .ok ()) := by
  obtain ⟨phase, fw, k⟩ := s
  cases op with
  | foreign k' => cases h
  | reorder l => cases h
  | terminate ok =>
    cases phase <;> simp only [countStep, fwdStep, reduceCtorEq] at h ⊢
    all_goals
      split at h
      · cases h
      · rename_i hd
        have hd : fw.shutdown = false := by simpa using hd
        simp only [NftFirewall.doShutdown, hd, Bool.false_eq_true, if_false]
        cases hr : fullRebuild conf { leases := [], shutdown := true } k ok with
        | mk r k' =>
          rw [hr] at h
          cases r with
          | ok u => exact ⟨h, .inr ⟨ok, rfl, by simp, trivial, by simp [hr]⟩⟩
          | err => cases h
          | panic => cases h
  | request rx now ok =>
    cases phase <;> simp only [countStep, fwdStep, reduceCtorEq] at h ⊢
    all_goals
      split at h
      · rename_i addr port hdec
        split at h
        · cases h
        · rename_i hno
          simp only [hdec, hno, if_false, handleMessage, Bool.false_eq_true]
          cases hr : fw.openPort conf k now addr port ok with
          | mk r q =>
            rw [hr] at h
            cases r with
            | ok u => exact ⟨h, .inl rfl⟩
            | err => cases h
            | panic => cases h
      · cases h
  | maintain now env =>
    cases phase <;> simp only [countStep, fwdStep, reduceCtorEq] at h ⊢
    obtain ⟨leases, sd⟩ := fw
    cases sd
    case true => simp at h
    · simp only [Bool.false_eq_true, if_false] at h
      split at h
      · cases h
      · rename_i he
        simp only [he, if_false, NftFirewall.maintain, Bool.false_eq_true]
        cases hr : removeLeases conf (pruneAllLeaseTimeouts now leases).2 k env with
        | mk r k' =>
          rw [hr] at h
          cases r with
          | ok u => exact ⟨h, .inl rfl⟩
          | panic => cases h
          | err =>
            simp only at h ⊢
            cases hb : fullRebuild conf { leases := (pruneAllLeaseTimeouts now leases).1, shutdown := false } (env.beforeRebuild k') env.rebuildOk with
            | mk r k'' =>
              rw [hb] at h
              cases r with
              | ok u => exact ⟨h, .inl rfl⟩
              | err => cases h
              | panic => cases h

/-- **C78** (the part that holds). As long as no maintenance has failed, and at the shutdown, the number printed is the number of rules in the chain. -/
theorem C78_count_partial (conf : Config) (n : NftNames) (hn : ChainOf conf n) (k0 : Kernel) (ok0 : Bool) (s0 : FwdState) (h0 : fwdStart conf k0 ok0 = some s0) :
    ∃ printed num, startCount conf k0 ok0 = some (printed, num) ∧ (∀ c, printed = some c → c = (ownRules n s0.kernel).length) ∧
    ∀ (ops : List FwdOp) (op : FwdOp), Fair conf n s0 (ops ++ [op]) → ((fwdRun conf s0 ops).2.phase = .running ∨ ∃ ok, op = .terminate ok) →
      ∀ c, (countStep conf (fwdRun conf s0 ops).2 (countRun conf s0 num ops) op).1 = some c → c = (ownRules n (fwdRun conf s0 (ops ++ [op])).2.kernel).length := by
  obtain ⟨hp0, n', hn', hi⟩ := fwdStart_inv h0
  obtain rfl := chainOf_unique hn hn'
  have hst : fullRebuild conf { leases := [], shutdown := false } k0 ok0 = (.ok (), s0.kernel) ∧ s0.fw.leases = [] := by
    unfold fwdStart NftFirewall.new at h0
    cases hr : fullRebuild conf { leases := [], shutdown := false } k0 ok0 with
    | mk r k =>
      simp only [hr] at h0
      cases r with
      | ok u => cases u; simp at h0; subst h0; exact ⟨rfl, rfl⟩
      | err => cases h0
      | panic => cases h0
  have hnum0 : rebuildNum conf { leases := [], shutdown := false } 0 = ctrlCount conf := rebuildNum_running hn rfl 0
  refine ⟨_, _, by simp only [startCount, hst.1]; rfl, ?_, ?_⟩
  · intro c hc
    have hrun := inv_running hi hp0
    rw [chain_length hrun.2.2.1, printed_sum hc, hst.2, hnum0]
  · intro ops op hf hph c hc
    rw [hnum0] at hc
    obtain ⟨hf1, hf2⟩ := fair_append hf
    have h := fwdRun_inv hn hi ops hf1
    have hnum := countRun_num hn ops hi (num := ctrlCount conf) (fun _ => rfl) hf1
    rw [fwdRun_append]
    simp only [fwdRun]
    generalize fwdRun conf s0 ops = q at *
    obtain ⟨hist, s⟩ := q
    simp only at *
    have hinv := fwdStep_inv hn h op hf2.1
    obtain ⟨h1, h2⟩ := countStep_printed hc
    have hterm : ∀ ok, op = .terminate ok → (s.phase = .running ∨ s.phase = .stopping) → s.fw.shutdown = false →
        (fullRebuild conf { leases := [], shutdown := true } s.kernel ok).1 = .ok () → c = (ownRules n (fwdStep conf s op).2.kernel).length := by
      rintro ok rfl hp hd hr
      have hk : (fwdStep conf s (.terminate ok)).2.kernel = flushed n s.kernel ∧ (countStep conf s (countRun conf s0 (ctrlCount conf) ops) (.terminate ok)).2 = 0 ∧
          (fwdStep conf s (.terminate ok)).2.fw.leases = [] := by
        rw [fullRebuild_shutdown hn rfl] at hr
        split at hr
        · rename_i hok
          rcases hp with hp | hp <;> simp only [fwdStep, countStep, hp, NftFirewall.doShutdown, hd, Bool.false_eq_true, if_false, hok,
            fullRebuild_shutdown hn (fw := ⟨[], true⟩) rfl, if_true] <;> exact ⟨trivial, rebuildNum_shutdown hn rfl _, trivial⟩
        · cases hr
      have := printed_sum h1
      rw [hk.2.1, hk.2.2] at this
      rw [hk.1, flushed_own, this]
      rfl
    rcases h2 with h2 | ⟨ok, ho, hp, hd, hr⟩
    · by_cases hrun : (fwdStep conf s op).2.phase = .running
      · have := inv_running hinv hrun
        have hn2 := countStep_num hn h hnum op hf2.1 (.inl hrun)
        rw [chain_length this.2.2.1, printed_sum h1, hn2]
      · rcases hph with hph | ⟨ok, rfl⟩
        · rw [hph] at h2; exact absurd h2 hrun
        · exfalso
          revert h2 hc
          simp only [fwdStep, countStep]
          cases hps : s.phase <;> simp
          all_goals
            split
            · simp
            · cases hdd : s.fw.doShutdown conf s.kernel ok with
              | mk r q => cases r <;> simp
    · exact hterm ok ho hp hd hr

/-! ## Concrete cases -/

/-- The example configuration with debug output. -/
def debugConf : Config := { fwConf with debug := true }

/-- The daemon after starting with it. -/
def debugStarted : FwdState := (fwdStart debugConf fwKernel true).getD ⟨.crashed, ⟨[], false⟩, ⟨[], 0⟩⟩

theorem debugStarted_ok : fwdStart debugConf fwKernel true = some debugStarted := by
  have : (fwdStart debugConf fwKernel true).isSome = true := by decide +kernel
  obtain ⟨s, hs⟩ := Option.isSome_iff_exists.1 this
  simp [debugStarted, hs]

/-- A client knocks, and maintenance fails with the lease expired. -/
def countHistory : List FwdOp := [.request (.msg (FwMessage.newOpen examplePeer .Tcp 22)) 0 true, .maintain (1000 * second) brokenEnv]

/-- Another client, served before the daemon stops. -/
def countLate : FwdOp := .request (.msg (FwMessage.newOpen (.v4 ⟨[192, 0, 2, 8], rfl⟩) .TcpUdp 443)) (1001 * second) true

/-- **C78 is false**: after a maintenance that has failed, requests are still served until the firewall is shut down, and the number printed then lacks the rules that
could not be removed. -/
theorem C78_negation : ∃ num c, (startCount debugConf fwKernel true).map (·.2) = some num ∧ Fair debugConf fwNames debugStarted (countHistory ++ [countLate]) ∧
    (countStep debugConf (fwdRun debugConf debugStarted countHistory).2 (countRun debugConf debugStarted num countHistory) countLate).1 = some c ∧
    c ≠ (ownRules fwNames (fwdRun debugConf debugStarted (countHistory ++ [countLate])).2.kernel).length :=
  ⟨1, 3, by decide +kernel, ⟨trivial, ⟨fun _ => ⟨rfl, Nat.le_refl _⟩, fun _ => ⟨rfl, Nat.le_refl _⟩⟩, trivial, trivial⟩, by decide +kernel, by decide +kernel⟩

/-- The same two requests with working maintenance: two rules, then one, then three; at the end none. -/
example : ChainOf debugConf fwNames ∧ fwdStart debugConf fwKernel true = some debugStarted ∧ (startCount debugConf fwKernel true) = some (some 1, 1) ∧
    (countStep debugConf debugStarted 1 (countHistory.head (by decide))).1 = some 2 ∧
    (countStep debugConf (fwdRun debugConf debugStarted (countHistory.take 1)).2 1 (.maintain (1000 * second) calmEnv)).1 = some 1 ∧
    (countStep debugConf (fwdRun debugConf debugStarted [countHistory.head (by decide), .maintain (1000 * second) calmEnv]).2 1 countLate).1 = some 3 ∧
    (countStep debugConf (fwdRun debugConf debugStarted countHistory).2 1 (.terminate true)).1 = some 0 :=
  ⟨⟨by decide, rfl, rfl, by decide, by decide⟩, debugStarted_ok, by decide +kernel, by decide +kernel, by decide +kernel, by decide +kernel, by decide +kernel⟩

end Letmein.Props
