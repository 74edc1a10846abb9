import Verif.Props.FirewallMore
import Verif.Spec.MaintTask

/-!
# C77: ports close in time
-/

namespace Letmein.Props

open Letmein Prog Spec

theorem maintRounds_append {due free : Nat} {a b : List Round} (h : maintRounds due free (a ++ b)) :
    maintRounds due free a ∧ maintRounds (due + a.length * FW_MAINTAIN_PERIOD) ((a.getLast?.map (·.done)).getD free) b := by
  induction a generalizing due free with
  | nil => simpa [maintRounds] using h
  | cons r a ih =>
    obtain ⟨h1, h2, h3, h4, h5, h6⟩ := h
    obtain ⟨i1, i2⟩ := ih h6
    refine ⟨⟨h1, h2, h3, h4, h5, i1⟩, ?_⟩
    have e : due + FW_MAINTAIN_PERIOD + a.length * FW_MAINTAIN_PERIOD = due + (r :: a).length * FW_MAINTAIN_PERIOD := by
      simp only [List.length_cons, Nat.succ_mul]; omega
    rw [e] at i2
    cases a with
    | nil => exact i2
    | cons q a => rw [List.getLast?_cons_cons]; cases hl : (q :: a).getLast? with
      | none => simp at hl
      | some x => rw [hl] at i2; exact i2

theorem heldUp_append {wake lock work free : Nat} {a b : List Round} (h : HeldUpAtMost wake lock work free (a ++ b)) :
    HeldUpAtMost wake lock work free a ∧ HeldUpAtMost wake lock work ((a.getLast?.map (·.done)).getD free) b := by
  induction a generalizing free with
  | nil => simpa [HeldUpAtMost] using h
  | cons r a ih =>
    obtain ⟨h1, h2, h3, h4⟩ := h
    obtain ⟨i1, i2⟩ := ih h4
    refine ⟨⟨h1, h2, h3, i1⟩, ?_⟩
    cases a with
    | nil => exact i2
    | cons q a => rw [List.getLast?_cons_cons]; cases hl : (q :: a).getLast? with
      | none => simp at hl
      | some x => rw [hl] at i2; exact i2

/-- **C77** (rounds). Ticks are never early and never forgotten: the k-th round is not before k periods, and however late rounds were, between the beginnings
of two consecutive rounds is at most the period (or the work, if that takes longer) and the hold-up. -/
theorem C77_rounds (start wake lock work : Nat) (before : List Round) (r next : Round) (hr : maintTask start (before ++ [r, next]))
    (hh : HeldUpAtMost wake lock work start (before ++ [r, next])) :
    start + before.length * 5000000000 ≤ r.locked ∧ next.locked ≤ r.locked + max 5000000000 work + wake + lock := by
  obtain ⟨_, h1, h2, h3, h4, h5, h6, h7, h8, h9, h10, _⟩ := maintRounds_append hr
  obtain ⟨_, g1, g2, g3, g4, g5, g6, _⟩ := heldUp_append hh
  simp only [show FW_MAINTAIN_PERIOD = 5000000000 from rfl] at h1 h2 h6 h7
  omega

/-- **C77** (ports close in time). The maintenance rounds up to time `t` have taken place, and the next one is over at `t` or later. No round is held up longer
than `wake`, `lock` and `work`. Then a packet that the chain of the running daemon accepts at `t`, other than to the control port, is covered by a request
acknowledged no longer ago than the lease time, five seconds, and the hold-up. -/
theorem C77_closes_in_time_partial (conf : Config) (n : NftNames) (hn : ChainOf conf n) (k0 : Kernel) (ok0 : Bool) (s0 : FwdState)
    (h0 : fwdStart conf k0 ok0 = some s0) (ops : List FwdOp) (hf : Fair conf n s0 ops) (hrun : (fwdRun conf s0 ops).2.phase = .running)
    (hch : Chronological ops) (start wake lock work : Nat) (rounds : List Round) (next : Round) (hr : maintTask start (rounds ++ [next]))
    (hh : HeldUpAtMost wake lock work start (rounds ++ [next])) (hperf : Performed rounds ops) (hstart : NotBefore start ops) (t : Nat) (ht : t ≤ next.done)
    (pkt : Packet) (hacc : chainAccepts n (fwdRun conf s0 ops).2.kernel pkt = true) (hnc : ¬ toControlPort conf pkt) :
    ∃ x ∈ (fwdRun conf s0 ops).1, ∃ addr p to, granted x.1 x.2 = some (addr, p, to) ∧ covers addr p pkt ∧
      t ≤ to + conf.nftTimeout + (max 5000000000 work + wake + lock + work) := by
  have hnext : next.done ≤ next.locked + work := by
    obtain ⟨_, _, _, h, _⟩ := heldUp_append hh
    exact h
  cases hl : rounds.getLast? with
  | none =>
    have : rounds = [] := by simpa using hl
    subst this
    obtain ⟨h1, h2, h3, h4, h5, _⟩ := hr
    obtain ⟨g1, g2, g3, _⟩ := hh
    obtain ⟨x, hx, addr, p, to, hg, hc⟩ := (C20_never_unasked conf n hn k0 ok0 s0 h0 ops hf pkt hacc).resolve_left hnc
    refine ⟨x, hx, addr, p, to, hg, hc, ?_⟩
    have hle : start ≤ to := by
      have hops := fwdRun_ops conf s0 ops
      refine hstart x.1 (by rw [← hops]; exact List.mem_map.2 ⟨x, hx, rfl⟩) to (granted_time hg)
    omega
  | some r =>
    obtain ⟨before, rfl⟩ : ∃ before, rounds = before ++ [r] := by
      obtain ⟨b, hb⟩ := List.getLast?_eq_some_iff.1 hl
      exact ⟨b, hb⟩
    rw [List.append_assoc] at hr hh
    have h := (C77_rounds start wake lock work before r next hr hh).2
    obtain ⟨env, hm⟩ := hperf r (by simp)
    exact C20_bounded conf n hn k0 ok0 s0 h0 ops hf hrun hch t _ r.locked env hm (by omega) pkt hacc hnc

/-! ## Without limits on the hold-up there is no limit -/

/-- A client gets a port for 600 seconds after the first round. -/
def heldHistory : List FwdOp := [.maintain 0 calmEnv, .request (.msg (FwMessage.newOpen examplePeer .Tcp 22)) (1 * second) true]

/-- The first rounds work; the next one begins in time, and the run of `nft` of that round ends only at `e`. -/
def heldRounds : List Round := [⟨0, 0, 0, 0⟩]

/-- **C77 is false** without assumptions about others: the run of `nft` has no time limit. However long `late`, there is a run in which every round begins
exactly when it should, and at a time later than the end of the lease by `late` the port is open. (It is the very run that should close the port which hangs.) -/
theorem C77_negation (late : Nat) : ∃ (rounds : List Round) (next : Round) (ops : List FwdOp) (t : Nat), maintTask 0 (rounds ++ [next]) ∧
    (∀ r ∈ rounds ++ [next], r.woken = r.due ∧ r.locked = r.due) ∧ Performed rounds ops ∧ Fair fwConf fwNames fwStarted ops ∧ Chronological ops ∧
    (∀ x ∈ (fwdRun fwConf fwStarted ops).1, ∀ a p to, granted x.1 x.2 = some (a, p, to) → to + fwConf.nftTimeout + late ≤ t) ∧ t ≤ next.done ∧
    (fwdRun fwConf fwStarted ops).2.phase = .running ∧ chainAccepts fwNames (fwdRun fwConf fwStarted ops).2.kernel ⟨examplePeer, .tcp, 22⟩ = true ∧
    ¬ toControlPort fwConf ⟨examplePeer, .tcp, 22⟩ := by
  refine ⟨heldRounds, ⟨5 * second, 5 * second, 5 * second, 602 * second + late⟩, heldHistory, 602 * second + late, ?_, ?_, ?_, ?_, ?_, ?_, ?_, ?_⟩
  · refine ⟨rfl, by decide, by decide, by decide, by decide, rfl, ?_, ?_, ?_, ?_, trivial⟩ <;>
      simp only [second, FW_MAINTAIN_PERIOD] <;> omega
  · intro r hr
    simp only [heldRounds, List.singleton_append, List.mem_cons, List.not_mem_nil, or_false] at hr
    rcases hr with rfl | rfl <;> exact ⟨rfl, rfl⟩
  · intro r hr
    simp only [heldRounds, List.mem_cons, List.not_mem_nil, or_false] at hr
    subst hr
    exact ⟨calmEnv, by simp [heldHistory]⟩
  · exact ⟨⟨fun _ => ⟨rfl, Nat.le_refl _⟩, fun _ => ⟨rfl, Nat.le_refl _⟩⟩, trivial, trivial⟩
  · show List.Pairwise (· ≤ ·) [0, 1 * second]
    decide
  · have h : ∀ x ∈ (fwdRun fwConf fwStarted heldHistory).1.filterMap (fun x => granted x.1 x.2), x.2.2 + fwConf.nftTimeout ≤ 602 * second := by decide +kernel
    intro x hx a p to hg
    have := h (a, p, to) (List.mem_filterMap.2 ⟨x, hx, hg⟩)
    simp only at this
    omega
  · exact Nat.le_refl _
  · refine ⟨by decide +kernel, by decide +kernel, ?_⟩
    rintro ⟨h, _⟩
    revert h
    decide +kernel

/-! ## Concrete cases -/

/-- Rounds of which one is late by a second, and the next follows at once. -/
def lateRounds : List Round :=
  [⟨0, 0, 0, 1⟩, ⟨5 * second, 5 * second, 11 * second, 11 * second + 5⟩, ⟨10 * second, 11 * second + 5, 11 * second + 6, 11 * second + 9⟩]

example : maintTask 0 lateRounds ∧ HeldUpAtMost 1 (6 * second) 5 0 lateRounds := by
  constructor
  · exact ⟨rfl, by decide, by decide, by decide, by decide, rfl, by decide, by decide, by decide, by decide, rfl, by decide, by decide, by decide, by decide, trivial⟩
  · exact ⟨by decide, by decide, by decide, by decide, by decide, by decide, by decide, by decide, by decide, trivial⟩

/-- All hypotheses of `C77_closes_in_time_partial` together. -/
example : ChainOf fwConf fwNames ∧ fwdStart fwConf fwKernel true = some fwStarted ∧ Fair fwConf fwNames fwStarted heldHistory ∧
    (fwdRun fwConf fwStarted heldHistory).2.phase = .running ∧ Chronological heldHistory ∧ maintTask 0 (heldRounds ++ [⟨5 * second, 5 * second, 5 * second, 5 * second + 3⟩]) ∧
    HeldUpAtMost 0 0 3 0 (heldRounds ++ [⟨5 * second, 5 * second, 5 * second, 5 * second + 3⟩]) ∧ Performed heldRounds heldHistory ∧ NotBefore 0 heldHistory ∧
    chainAccepts fwNames (fwdRun fwConf fwStarted heldHistory).2.kernel ⟨examplePeer, .tcp, 22⟩ = true := by
  refine ⟨⟨by decide, rfl, rfl, by decide, by decide⟩, fwStarted_ok, ⟨⟨fun _ => ⟨rfl, Nat.le_refl _⟩, fun _ => ⟨rfl, Nat.le_refl _⟩⟩, trivial, trivial⟩,
    by decide +kernel, ?_, ?_, ?_, ?_, fun _ _ _ _ => Nat.zero_le _, by decide +kernel⟩
  · show List.Pairwise (· ≤ ·) [0, 1 * second]
    decide
  · exact ⟨rfl, by decide, by decide, by decide, by decide, rfl, by decide, by decide, by decide, by decide, trivial⟩
  · exact ⟨by decide, by decide, by decide, by decide, by decide, by decide, trivial⟩
  · intro r hr
    simp only [heldRounds, List.mem_cons, List.not_mem_nil, or_false] at hr
    subst hr
    exact ⟨calmEnv, by simp [heldHistory]⟩

end Letmein.Props
