import Verif.Props.Takeover

/-!
# Further theorems found necessary by wrong programs (4)
-/

namespace Letmein.Props

open Letmein Prog Spec

/-- **C65** (what is not a socket stays). If there is something other than a socket where letmeinfwd's socket belongs, then letmeinfwd's start leaves it as it is at every
moment, and fails. -/
theorem C65_others_stay (env : FsEnv) (testMode : Bool) (gid : UInt32) (between : Bool) (chunks : List Nat) (pid : UInt32) (fs : Fs) (n : Node)
    (h0 : fs fwdSockPath = some n) (hn : ∀ b, n.kind ≠ .sock b) :
    (fwdFsStart env testMode gid between chunks pid fs).res ≠ .ok () ∧
    (fwdFsStart env testMode gid between chunks pid fs).fs fwdSockPath = some n ∧
      ∀ s ∈ (fwdFsStart env testMode gid between chunks pid fs).states, s fwdSockPath = some n := by
  have hd : fwdSockPath ≠ fwdDirPath := by decide
  have hp : fwdSockPath ≠ fwdPidPath := by decide
  -- the first two steps
  have key1 : FsKeeps (fun s => s fwdSockPath = some n) (fwdMakeRunSubdir env testMode gid) := by
    unfold fwdMakeRunSubdir
    refine fsKeeps_bind ?_ fun _ => ?_
    · unfold createDirIfNotExists
      refine fsKeeps_bind fsKeeps_stat fun m => ?_
      cases m with
      | none =>
        refine fsKeeps_call fun s s' hs hf => ?_
        split at hf
        · injection hf with hf; subst hf; exact put_keeps hd hs
        · cases hf
      | some m =>
        simp only
        split
        · exact fsKeeps_fail
        · exact fsKeeps_pure
    · split
      · exact setOwnerMode_keeps hd
      · exact fsKeeps_pure
  have key2 : FsKeeps (fun s => s fwdSockPath = some n) (fsOther between) := by
    unfold fsOther
    split
    · exact fsKeeps_pure
    · exact fsKeeps_fail
  -- the socket is neither removed nor bound
  have key3 : ∀ s, s fwdSockPath = some n → (fwdBindSocket env testMode gid s).res = .err ∧ (fwdBindSocket env testMode gid s).fs = s ∧
      (fwdBindSocket env testMode gid s).states = [] := by
    intro s hs
    have hrm : fwdRemoveSocket env s = ⟨.ok (), [], s⟩ := by
      unfold fwdRemoveSocket
      show FsM.bind (fsStat fwdSockPath) _ s = _
      obtain ⟨k, u, g, m⟩ := n
      simp only [FsM.bind, fsStat, hs, List.nil_append]
      cases k with
      | sock b => exact absurd rfl (hn b)
      | dir => rfl
      | file c => rfl
      | other => rfl
    have hb : bindCall env (env.ok 4) fwdSockPath s = ⟨.err, [], s⟩ := by
      unfold bindCall fsCall
      cases env.ok 4 <;> simp [hs]
    unfold fwdBindSocket
    show (FsM.bind (fwdRemoveSocket env) _ s).res = _ ∧ (FsM.bind (fwdRemoveSocket env) _ s).fs = _ ∧ (FsM.bind (fwdRemoveSocket env) _ s).states = _
    unfold FsM.bind
    rw [hrm]
    simp only [List.nil_append]
    show (FsM.bind (bindCall env (env.ok 4) fwdSockPath) _ s).res = _ ∧ (FsM.bind (bindCall env (env.ok 4) fwdSockPath) _ s).fs = _ ∧
      (FsM.bind (bindCall env (env.ok 4) fwdSockPath) _ s).states = _
    unfold FsM.bind
    rw [hb]
    simp
  have key4 : FsKeeps (fun s => s fwdSockPath = some n) (fwdBindSocket env testMode gid) := by
    intro s hs
    obtain ⟨_, h2, h3⟩ := key3 s hs
    rw [h2, h3]
    exact ⟨hs, by simp⟩
  have keyAll : FsKeeps (fun s => s fwdSockPath = some n) (fwdFsStart env testMode gid between chunks pid) := by
    unfold fwdFsStart
    refine fsKeeps_bind key1 fun _ => fsKeeps_bind key2 fun _ => fsKeeps_bind key4 fun _ => ?_
    unfold makePidfile
    refine fsKeeps_bind (fsKeeps_call fun s s' hs hf => ?_) fun _ => writeAll_keeps hp _ _ _
    split at hf
    · injection hf with hf; subst hf; exact put_keeps hp hs
    · split at hf
      · injection hf with hf; subst hf; exact put_keeps hp hs
      · cases hf
  refine ⟨?_, keyAll fs h0⟩
  have tri1 : FsTri (fun s => s fwdSockPath = some n) (fun _ => True) (fun _ _ => False) (fwdFsStart env testMode gid between chunks pid) := by
    unfold fwdFsStart
    refine fsTri_bind (M := fun _ s => s fwdSockPath = some n) (fun s hs => ⟨fun _ _ => trivial, fun _ _ => (key1 s hs).1⟩) fun _ => ?_
    refine fsTri_bind (M := fun _ s => s fwdSockPath = some n) (fun s hs => ⟨fun _ _ => trivial, fun _ _ => (key2 s hs).1⟩) fun _ => ?_
    refine fsTri_bind (M := fun _ _ => False) (fun s hs => ⟨fun _ _ => trivial, fun a ha => ?_⟩) fun _ => ?_
    · rw [(key3 s hs).1] at ha; cases ha
    · exact fun s hs => hs.elim
  intro hok
  exact (tri1 fs h0).2 () hok

/-- The hypotheses of `C65_others_stay`, with all system calls working: a file at the place of the socket; without it the start succeeds. -/
example : let fs : Fs := fun p => if p = fwdSockPath then some ⟨.file ['x'], 0, 0, 0o600⟩ else none
    fs fwdSockPath = some ⟨.file ['x'], 0, 0, 0o600⟩ ∧
    (fwdFsStart ⟨0, 0, 0o022, fun _ => true⟩ false 996 true [] 4711 fs).res = .err ∧
    (fwdFsStart ⟨0, 0, 0o022, fun _ => true⟩ false 996 true [] 4711 (fun _ => none)).res = .ok () := by decide +kernel

end Letmein.Props
