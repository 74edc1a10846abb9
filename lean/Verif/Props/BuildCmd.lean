import Verif.Model.BuildCmd

/-!
# Property C137: the Windows build reports success only if every step has succeeded
-/

namespace Letmein.Spec

open Letmein

/-- The steps of the build, in order. -/
def WinSteps : List WinCmd := [.clean, .installAudit, .installAuditable, .build, .testLetmein, .testConf, .testProto, .auditableBuild, .auditBin]

/-- A program has succeeded: its status is zero. -/
def WinOk (status : UInt32) : Prop := status = 0

/-- A program has ended with a status of its own, not by an exception (whose statuses have the highest bit set). -/
def WinEnded (status : UInt32) : Prop := status.toNat < 2147483648

end Letmein.Spec

namespace Letmein.Props

open Letmein Spec

/-- A step and its check. -/
def checkedSteps (cs : List WinCmd) : List BatLine := cs.flatMap fun c => [.run c, .ifErrorGoto 1]

/-- The end of the script. -/
def batTail : List BatLine := [.echoSuccess, .pause, .exitB 0, .errorLabel, .pause, .exitB 1]

theorem buildCmdLines_eq : buildCmdLines = checkedSteps WinSteps ++ batTail := rfl

theorem batRun_skip (finds : Bool) (status : WinCmd → UInt32) (level : Int) (cs : List WinCmd) :
    batRun finds status true level (checkedSteps cs ++ batTail) = ⟨[], false, 1⟩ := by
  induction cs with
  | nil => cases finds <;> rfl
  | cons c cs ih => exact ih

theorem winSigned_fails (s : UInt32) : 1 ≤ winSigned s ↔ s ≠ 0 ∧ WinEnded s := by
  have h0 : s = 0 ↔ s.toNat = 0 := by
    rw [← UInt32.toNat_inj]; rfl
  have hlt := s.toNat_lt
  rw [Ne, h0]
  unfold winSigned WinEnded
  split <;> omega

theorem batRun_steps (finds : Bool) (status : WinCmd → UInt32) (level : Int) (cs : List WinCmd) :
    batRun finds status false level (checkedSteps cs ++ batTail) =
      match cs.findIdx? (fun c => decide (1 ≤ winSigned (status c))) with
      | none => ⟨cs, true, 0⟩
      | some i => ⟨cs.take (i + 1), false, 1⟩ := by
  induction cs generalizing level with
  | nil => rfl
  | cons c cs ih =>
    show ({ batRun finds status (decide (1 ≤ winSigned (status c))) (winSigned (status c)) (checkedSteps cs ++ batTail) with
      ran := c :: (batRun finds status (decide (1 ≤ winSigned (status c))) (winSigned (status c)) (checkedSteps cs ++ batTail)).ran } : BatEnd) = _
    rw [List.findIdx?_cons]
    cases h : decide (1 ≤ winSigned (status c)) with
    | true => rw [batRun_skip]; rfl
    | false =>
      rw [ih]
      cases cs.findIdx? (fun c => decide (1 ≤ winSigned (status c))) with
      | none => rfl
      | some i => rfl

/-! ## The theorems -/

/-- **C137**: the full claim. -/
def C137_statement : Prop := ∀ finds status, (buildCmdScript finds status).status = 0 → ∀ c ∈ WinSteps, WinOk (status c)

/-- **C137** is false: `if ERRORLEVEL 1` is not true for a status that is negative as a signed number, and those are the statuses of programs that have crashed. Here cargo crashes in the audit, with an access violation. -/
theorem C137_negation : ¬ C137_statement := by
  intro h
  have := h true (fun c => if c = .auditBin then 0xC0000005 else 0) (by decide +kernel) .auditBin (by decide)
  exact absurd this (by unfold WinOk; decide)

/-- **C137** (what is missed). The script says SUCCESS and ends with status 0 exactly if each step has succeeded or crashed; then all of them have been run. Whether `goto` finds the label makes no difference. -/
theorem C137_success_iff (finds : Bool) (status : WinCmd → UInt32) :
    ((buildCmdScript finds status).status = 0 ↔ ∀ c ∈ WinSteps, WinOk (status c) ∨ ¬ WinEnded (status c)) ∧
    ((buildCmdScript finds status).success = true ↔ (buildCmdScript finds status).status = 0) ∧
    ((buildCmdScript finds status).status = 0 → (buildCmdScript finds status).ran = WinSteps) ∧
    ((buildCmdScript finds status).status = 0 ∨ (buildCmdScript finds status).status = 1) := by
  have hrun : buildCmdScript finds status = batRun finds status false 0 (checkedSteps WinSteps ++ batTail) := rfl
  rw [hrun, batRun_steps]
  cases h : WinSteps.findIdx? (fun c => decide (1 ≤ winSigned (status c))) with
  | none =>
    refine ⟨⟨fun _ c hc => ?_, fun _ => rfl⟩, ⟨fun _ => rfl, fun _ => rfl⟩, fun _ => rfl, .inl rfl⟩
    have := List.findIdx?_eq_none_iff.1 h c hc
    have hn : ¬ (1 ≤ winSigned (status c)) := by simpa using this
    rw [winSigned_fails] at hn
    by_cases h0 : status c = 0
    · exact .inl h0
    · exact .inr fun he => hn ⟨h0, he⟩
  | some i =>
    have hne : ¬ ((1 : Int) = 0) := by decide
    refine ⟨⟨fun hx => absurd hx hne, fun hall => ?_⟩, ⟨fun hx => (nomatch hx), fun hx => absurd hx hne⟩, fun hx => absurd hx hne, .inr rfl⟩
    obtain ⟨hi, hp, _⟩ := List.findIdx?_eq_some_iff_getElem.1 h
    have h1 := (winSigned_fails _).1 (of_decide_eq_true hp)
    rcases hall _ (List.getElem_mem hi) with h2 | h2
    · exact absurd h2 h1.1
    · exact absurd h1.2 h2

/-- **C137** for steps that do not crash: the script reports success exactly if every step has succeeded; if not, the steps up to the first one that has failed have been run, and none after it. -/
theorem C137_steps_partial (finds : Bool) (status : WinCmd → UInt32) (he : ∀ c ∈ WinSteps, WinEnded (status c)) :
    ((buildCmdScript finds status).status = 0 ↔ ∀ c ∈ WinSteps, WinOk (status c)) ∧
    ∀ before c after, WinSteps = before ++ c :: after → (∀ b ∈ before, WinOk (status b)) → ¬ WinOk (status c) →
      (buildCmdScript finds status).ran = before ++ [c] ∧ (buildCmdScript finds status).status = 1 ∧ (buildCmdScript finds status).success = false := by
  constructor
  · rw [(C137_success_iff finds status).1]
    exact ⟨fun h c hc => (h c hc).resolve_right fun hx => hx (he c hc), fun h c hc => .inl (h c hc)⟩
  · intro before c after hs hb hc
    have hrun : buildCmdScript finds status = batRun finds status false 0 (checkedSteps WinSteps ++ batTail) := rfl
    have hidx : WinSteps.findIdx? (fun c => decide (1 ≤ winSigned (status c))) = some before.length := by
      rw [List.findIdx?_eq_some_iff_getElem]
      refine ⟨by rw [hs]; simp, ?_, fun j hj => ?_⟩
      · have : WinSteps[before.length]'(by rw [hs]; simp) = c := by simp [hs]
        rw [this]
        exact decide_eq_true ((winSigned_fails _).2 ⟨hc, he c (by rw [hs]; simp)⟩)
      · have : WinSteps[j]'(by rw [hs]; simp; omega) = before[j] := by simp [hs, List.getElem_append_left hj]
        rw [this, Bool.not_eq_true, decide_eq_false_iff_not, winSigned_fails]
        exact fun h => h.1 (hb _ (List.getElem_mem hj))
    rw [hrun, batRun_steps, hidx]
    refine ⟨?_, rfl, rfl⟩
    show WinSteps.take (before.length + 1) = _
    rw [hs, List.take_append, List.take_of_length_le (Nat.le_succ _)]
    simp

/-- A failing test of letmein-conf (status 101 of cargo) ends the build. -/
example : (buildCmdScript false (fun c => if c = .testConf then 101 else 0)).ran = [.clean, .installAudit, .installAuditable, .build, .testLetmein, .testConf] ∧
    (buildCmdScript false (fun c => if c = .testConf then 101 else 0)).status = 1 := by
  have h := (C137_steps_partial false (fun c => if c = .testConf then 101 else 0) (by intro c _; unfold WinEnded; cases c <;> decide)).2
    [.clean, .installAudit, .installAuditable, .build, .testLetmein] .testConf [.testProto, .auditableBuild, .auditBin] rfl (by intro b hb; cases b <;> first | rfl | (simp at hb)) (by unfold WinOk; decide)
  exact ⟨h.1, h.2.1⟩

/-- All steps succeed but one that crashes. -/
example : (buildCmdScript true (fun c => if c = .testProto then 0xC00000FD else 0)).success = true := by
  have h := C137_success_iff true (fun c => if c = .testProto then 0xC00000FD else 0)
  exact h.2.1.2 (h.1.2 (by intro c _; cases c <;> first | exact .inl rfl | exact .inr (by unfold WinEnded; decide)))

end Letmein.Props
