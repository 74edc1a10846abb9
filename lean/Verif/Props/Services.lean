import Verif.Model.Services
import Verif.Props.Ready

/-!
# Property C119: after the scripts letmein runs, now and after the next boot
-/

namespace Letmein.Props

open Letmein Prog Spec

theorem script_append {D : UnitDeps} {s s' : UnitsState} {a b : List ScriptStep} (h : ScriptRun D s (a ++ b) s' true) :
    ∃ m, ScriptRun D s a m true ∧ ScriptRun D m b s' true := by
  induction a generalizing s with
  | nil => exact ⟨s, .done s, h⟩
  | cons c rest ih =>
    cases h with
    | ok h =>
      obtain ⟨m, h1, h2⟩ := ih h
      exact ⟨m, .ok h1, h2⟩
    | ignored h0 hf h =>
      obtain ⟨m, h1, h2⟩ := ih h
      exact ⟨m, .ignored h0 hf h1, h2⟩

/-- The commands one after the other, none failing. -/
def applyAll (D : UnitDeps) : UnitsState → List ScriptStep → UnitsState
  | s, [] => s
  | s, c :: rest => applyAll D (c.call.apply D s) rest

theorem script_works (D : UnitDeps) (s : UnitsState) (a : List ScriptStep) : ScriptRun D s a (applyAll D s a) true := by
  induction a generalizing s with
  | nil => exact .done s
  | cons c rest ih => exact .ok (ih _)

theorem script_must {D : UnitDeps} {s s' : UnitsState} {a : List ScriptStep} (ha : ∀ c ∈ a, c.must = true) (h : ScriptRun D s a s' true) :
    s' = applyAll D s a := by
  induction a generalizing s with
  | nil =>
    cases h
    rfl
  | cons c rest ih =>
    cases h with
    | ok h => exact ih (fun c hc => ha c (List.mem_cons_of_mem _ hc)) h
    | ignored h0 => exact absurd (ha c (List.mem_cons_self ..)) (by rw [h0]; simp)

theorem pulled_fwd : Pulled shippedDeps .lm .fwd := .requires .asked (by simp [shippedDeps])

theorem startServices_active (s : UnitsState) (u : SysUnit) : (applyAll shippedDeps s startServices).active u := by
  have hlm := fun v => (C118_pulled v).2
  simp only [startServices, applyAll, doSystemctl, SysCall.apply]
  by_cases h : u = .lmSocket
  · subst h
    exact .inl (.inr .asked)
  · exact .inr ((hlm u).2 h)

theorem startServices_enabled (s : UnitsState) : (applyAll shippedDeps s startServices).enabled = s.enabled := rfl

/-- **C119** (installation). If install-server.sh comes to its end, whatever the state of the units before and whichever of the calls fail whose exit
status is ignored, all units are enabled and active, and so they are after the next boot. -/
theorem C119_install {s s' : UnitsState} (h : ScriptRun shippedDeps s installScript s' true) :
    (∀ u, u ≠ .nft → s'.enabled u) ∧ (∀ u, s'.active u) ∧ ∀ u, s'.booted shippedDeps u := by
  obtain ⟨m, _, h⟩ := script_append (a := doOther :: stopServices) h
  have e := script_must (by simp [doOther, installFwdCalls, installLmCalls, startServices, doSystemctl]) h
  have e1 : s'.enabled = fun v => (((m.enabled v ∨ v = .fwdSocket) ∨ v = .fwd) ∨ v = .lmSocket) ∨ v = .lm := by
    rw [e]
    rfl
  have en : ∀ u, u ≠ .nft → s'.enabled u := by
    intro u hu
    rw [e1]
    cases u <;> simp at hu ⊢
  refine ⟨en, fun u => ?_, fun u => ?_⟩
  · rw [e]
    exact startServices_active (applyAll shippedDeps m ([doOther, doOther, doOther, doOther] ++ (installFwdCalls ++ installLmCalls))) u
  · by_cases hu : u = .nft
    · subst hu
      exact ⟨.fwd, en _ (by simp), .requires .asked (by simp [shippedDeps])⟩
    · exact ⟨u, en u hu, .asked⟩

/-- **C119** (restart.sh, partial: now). If restart.sh comes to its end, all units are active. Missing from the full statement: after the next boot,
see `C119_restart_disables`. -/
theorem C119_restart_partial {s s' : UnitsState} (h : ScriptRun shippedDeps s restartScript s' true) (u : SysUnit) : s'.active u := by
  obtain ⟨m, _, h⟩ := script_append (a := doOther :: stopServices) h
  rw [script_must (by simp [startServices, doSystemctl]) h]
  exact startServices_active m u

/-- **C119 is false** (restart.sh disables). If no command of restart.sh fails, then afterwards no unit of letmein is enabled, whatever was enabled before,
and none is started at the next boot: `stop_services` disables the units, as `install-server.sh` and an uninstallation need it, and `start_services`
does not enable them. -/
theorem C119_restart_disables (s : UnitsState) :
    ScriptRun shippedDeps s restartScript (applyAll shippedDeps s restartScript) true ∧
    (∀ u, u ≠ .nft → ¬ (applyAll shippedDeps s restartScript).enabled u) ∧
    ∀ u, (applyAll shippedDeps s restartScript).booted shippedDeps u ↔ s.enabled .nft ∧ u = .nft := by
  have e : ∀ v, (applyAll shippedDeps s restartScript).enabled v ↔ s.enabled v ∧ v = .nft := by
    intro v
    show ((((s.enabled v ∧ v ≠ .lm) ∧ v ≠ .lmSocket) ∧ v ≠ .fwd) ∧ v ≠ .fwdSocket) ↔ _
    cases v <;> simp
  refine ⟨script_works _ _ _, fun u hu h => hu ((e u).1 h).2, fun u => ⟨?_, ?_⟩⟩
  · rintro ⟨v, hv, hp⟩
    obtain ⟨h1, rfl⟩ := (e v).1 hv
    refine ⟨h1, ?_⟩
    clear hv
    induction hp with
    | asked => rfl
    | requires _ hm ih =>
      rw [ih] at hm
      simp [shippedDeps] at hm
  · rintro ⟨h1, rfl⟩
    exact ⟨.nft, (e _).2 ⟨h1, rfl⟩, .asked⟩

/-- Everything is enabled and active. -/
def allUp : UnitsState := { enabled := fun _ => True, active := fun _ => True }

/-- **C119 is false** (the next boot). Everything runs and is enabled, restart.sh is run without any failure; after the next boot there is neither letmeind
nor letmeinfwd, so the control port is closed and nobody can knock. -/
theorem C119_negation : ∃ s s', (∀ u, s.enabled u ∧ s.active u) ∧ ScriptRun shippedDeps s restartScript s' true ∧
    ¬ s'.booted shippedDeps .fwd ∧ ¬ s'.booted shippedDeps .lm := by
  obtain ⟨h1, _, h3⟩ := C119_restart_disables allUp
  refine ⟨allUp, _, fun _ => ⟨trivial, trivial⟩, h1, fun h => ?_, fun h => ?_⟩
  · exact absurd ((h3 _).1 h).2 (by simp)
  · exact absurd ((h3 _).1 h).2 (by simp)

/-- **C119 is false** (a failed installation). install-server.sh stops and disables everything before it installs anything: if the first command of the
installation fails, nothing of letmein is active or enabled, also if everything was. -/
theorem C119_negation_failed : ∃ s', ScriptRun shippedDeps allUp installScript s' false ∧ ∀ u, u ≠ .nft → ¬ s'.active u ∧ ¬ s'.enabled u := by
  refine ⟨applyAll shippedDeps allUp (doOther :: stopServices), ?_, fun u hu => ⟨?_, ?_⟩⟩
  · exact .ok (.ok (.ok (.ok (.ok (.ok (.ok (.ok (.ok (.died rfl rfl)))))))))
  · have hlm := (C116_who u).1
    have hfwd := (C116_who u).2.2.1
    rintro ⟨_, h⟩
    exact h (hfwd.2 hu)
  · show ¬ ((((True ∧ u ≠ .lm) ∧ u ≠ .lmSocket) ∧ u ≠ .fwd) ∧ u ≠ .fwdSocket)
    cases u <;> simp at hu ⊢

/-- restart.sh without the calls of `disable`. -/
def restartFixed : List ScriptStep := doOther :: (stopServices.take 4 ++ startServices)

/-- **C119** (what is wrong with restart.sh). Without the calls of `disable` it changes nothing about what is enabled, whichever of the ignored calls
fail, and if it comes to its end all units are active. -/
theorem C119_fixed {s s' : UnitsState} {b : Bool} (h : ScriptRun shippedDeps s restartFixed s' b) :
    s'.enabled = s.enabled ∧ (b = true → ∀ u, s'.active u) := by
  constructor
  · have hk : ∀ a : List ScriptStep, (∀ c ∈ a, (∃ u, c.call = .stop u) ∨ (∃ u, c.call = .start u) ∨ c.call = .other) →
        ∀ {s s' : UnitsState} {b : Bool}, ScriptRun shippedDeps s a s' b → s'.enabled = s.enabled := by
      intro a ha s s' b h
      induction h with
      | done => rfl
      | @ok s s' c rest b _ ih =>
        rw [ih (fun c hc => ha c (List.mem_cons_of_mem _ hc))]
        rcases ha c (List.mem_cons_self ..) with ⟨u, e⟩ | ⟨u, e⟩ | e <;> rw [e] <;> rfl
      | @ignored s s1 s' c rest b _ hf _ ih =>
        rw [ih (fun c hc => ha c (List.mem_cons_of_mem _ hc))]
        rcases ha c (List.mem_cons_self ..) with ⟨u, e⟩ | ⟨u, e⟩ | e <;> rw [e] at hf
        · exact hf
        · exact hf
        · rw [show s1 = s from hf]
      | @died s s1 c rest _ hf =>
        rcases ha c (List.mem_cons_self ..) with ⟨u, e⟩ | ⟨u, e⟩ | e <;> rw [e] at hf
        · exact hf
        · exact hf
        · rw [show s1 = s from hf]
    exact hk restartFixed (by simp [restartFixed, doOther, stopServices, trySystemctl, startServices, doSystemctl]) h
  · rintro rfl u
    obtain ⟨m, _, h⟩ := script_append (a := doOther :: stopServices.take 4) h
    rw [script_must (by simp [startServices, doSystemctl]) h]
    exact startServices_active m u

/-- The first installation: nothing is there, so the calls of `stop_services` fail, and the script comes to its end. -/
example : ∃ s', ScriptRun shippedDeps { enabled := fun _ => False, active := fun _ => False } installScript s' true ∧ s'.enabled .lm ∧ s'.active .lmSocket := by
  have h : ScriptRun shippedDeps { enabled := fun _ => False, active := fun _ => False } installScript
      (applyAll shippedDeps { enabled := fun _ => False, active := fun _ => False } (installScript.drop 9)) true :=
    .ok (.ignored rfl rfl (.ignored rfl rfl (.ignored rfl rfl (.ignored rfl rfl (.ignored rfl ⟨rfl, fun _ _ => .rfl⟩ (.ignored rfl ⟨rfl, fun _ _ => .rfl⟩
      (.ignored rfl ⟨rfl, fun _ _ => .rfl⟩ (.ignored rfl ⟨rfl, fun _ _ => .rfl⟩ (script_works _ _ (installScript.drop 9))))))))))
  exact ⟨_, h, (C119_install h).1 _ (by simp), (C119_install h).2.1 _⟩

/-- In between, after `stop_services`, nothing of letmein is active. -/
example (u : SysUnit) (hu : u ≠ .nft) : ¬ (applyAll shippedDeps allUp stopServices).active u := by
  rintro ⟨_, h⟩
  exact h ((C116_who u).2.2.1.2 hu)

end Letmein.Props
