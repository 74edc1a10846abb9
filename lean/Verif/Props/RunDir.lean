import Verif.Lemmas.RunDir

/-!
# Properties C64 and C65: pid file and socket permissions
-/

namespace Letmein.Props

open Letmein Spec

/-! ## C64: the pid file -/

/-- **C64**. After letmeind has written its pid file, whatever it contained before and in however many pieces it was written, letmeinfwd reads
exactly letmeind's pid from it (pids fit into 31 bits; any other would be refused, not confused). -/
theorem C64_pid_round_trip (env : FsEnv) (between : Bool) (chunks : List Nat) (pid : UInt32) (fs : Fs)
    (h : (lmFsStart env between chunks pid fs).res = .ok ()) :
    getLetmeindPid (fsRead (lmFsStart env between chunks pid fs).fs lmPidPath) =
      if pid.toNat ≤ 2147483647 then .ok (pid.toNat : Int) else .err := by
  have key : FsTri (fun _ => True) (fun _ => True) (fun _ fs => fsRead fs lmPidPath = some (pidFileText pid)) (lmFsStart env between chunks pid) := by
    unfold lmFsStart
    refine fsTri_bind (M := fun _ _ => True) (fun _ _ => ⟨fun _ _ => trivial, fun _ _ => trivial⟩) fun _ => ?_
    refine fsTri_bind (M := fun _ _ => True) (fun _ _ => ⟨fun _ _ => trivial, fun _ _ => trivial⟩) fun _ => ?_
    unfold makePidfile
    refine fsTri_bind (M := fun _ fs => fsRead fs lmPidPath = some []) ?_ fun _ => ?_
    · refine fsTri_call fun fs fs' _ hf => ⟨trivial, ?_⟩
      split at hf
      · injection hf with hf; subst hf; simp [fsRead, put_self]
      · split at hf
        · injection hf with hf; subst hf; simp [fsRead, put_self]
        · cases hf
    · intro fs hp
      have := writeAll_content chunks (fun i => env.ok (8 + i)) (pidFileText pid) [] fs hp
      exact ⟨by simp, by simpa using this.2⟩
  rw [(key fs trivial).2 () h, pidFileText_parse]

/-- **C64** (while it is being written). If the text is written at once, then at every moment letmeinfwd reads what was there before, nothing
valid, or letmeind's pid. -/
theorem C64_no_other_pid (env : FsEnv) (between : Bool) (pid : UInt32) (fs s : Fs) (hs : s ∈ (lmFsStart env between [] pid fs).states) :
    fsRead s lmPidPath = fsRead fs lmPidPath ∨ getLetmeindPid (fsRead s lmPidPath) = .err ∨
      getLetmeindPid (fsRead s lmPidPath) = .ok (pid.toNat : Int) := by
  have key : FsTri (fun s => fsRead s lmPidPath = fsRead fs lmPidPath)
      (fun s => fsRead s lmPidPath = fsRead fs lmPidPath ∨ fsRead s lmPidPath = some [] ∨ fsRead s lmPidPath = some (pidFileText pid))
      (fun _ _ => True) (lmFsStart env between [] pid) := by
    unfold lmFsStart
    refine fsTri_bind (M := fun _ s => fsRead s lmPidPath = fsRead fs lmPidPath) ?_ fun _ => ?_
    · unfold createDirIfNotExists
      refine fsTri_bind fsTri_stat fun n => ?_
      cases n with
      | none =>
        refine mkdir_tri fun fs' uid gid mode hp _ => ?_
        have : fsRead (fs'.put lmDirPath (some ⟨.dir, uid, gid, mode⟩)) lmPidPath = fsRead fs lmPidPath := by
          rw [← hp.1]
          unfold fsRead
          rw [put_other _ _ (by decide)]
        exact ⟨.inl this, this⟩
      | some n =>
        simp only
        split
        · exact fsTri_fail
        · exact fsTri_pure fun _ h => h.1
    · refine fsTri_bind (M := fun _ s => fsRead s lmPidPath = fsRead fs lmPidPath) ?_ fun _ => ?_
      · cases between with
        | true => exact fsTri_pure fun _ h => h
        | false => exact fsTri_fail
      · unfold makePidfile
        refine fsTri_bind (M := fun _ fs => fsRead fs lmPidPath = some []) ?_ fun _ => ?_
        · refine fsTri_call fun fs fs' _ hf => ?_
          have : fsRead fs' lmPidPath = some [] := by
            split at hf
            · injection hf with hf; subst hf; simp [fsRead, put_self]
            · split at hf
              · injection hf with hf; subst hf; simp [fsRead, put_self]
              · cases hf
          exact ⟨.inr (.inl this), this⟩
        · have hne : pidFileText pid ≠ [] := by simp [pidFileText]
          cases ht : pidFileText pid with
          | nil => exact absurd ht hne
          | cons c t =>
            rw [writeAll]
            refine fsTri_call fun fs fs' hp hf => ?_
            split at hf
            · rename_i d u g m hn
              injection hf with hf
              subst hf
              have hc : d = [] := by simpa [fsRead, hn] using hp
              subst hc
              exact ⟨.inr (.inr (by simp [fsRead, put_self])), trivial⟩
            · cases hf
  rcases (key fs rfl).1 s hs with h | h | h
  · exact .inl h
  · right; left
    rw [h]
    decide
  · right
    rw [h, pidFileText_parse]
    split
    · exact .inr rfl
    · exact .inl rfl

/-- A run directory with an outdated, longer pid file, everything working. -/
def oldPidFs : Fs := fun p =>
  if p = lmDirPath then some ⟨.dir, 977, 976, 0o750⟩
  else if p = lmPidPath then some ⟨.file "123456\n".toList, 977, 976, 0o644⟩ else none

/-- letmeind's process. -/
def lmEnv : FsEnv := { uid := 977, gid := 976, umask := 0o022, ok := fun _ => true }

/-- The old file is replaced, also if the text is written in two pieces (opening and two writes). -/
example : (lmFsStart lmEnv true [1] 4711 oldPidFs).res = .ok () ∧ (lmFsStart lmEnv true [1] 4711 oldPidFs).states.length = 3 ∧
    getLetmeindPid (fsRead (lmFsStart lmEnv true [1] 4711 oldPidFs).fs lmPidPath) = .ok 4711 ∧
    (lmFsStart lmEnv true [] 4711 (fun _ => none)).res = .ok () ∧ (lmFsStart lmEnv true [] 4711 (fun _ => none)).states.length = 3 ∧
    getLetmeindPid (fsRead oldPidFs lmPidPath) = .ok 123456 := by decide +kernel

/-- Why `C64_no_other_pid` needs that the text is written at once: half-written, the file names another process. -/
example : ∃ s ∈ (lmFsStart lmEnv true [1] 4711 oldPidFs).states, getLetmeindPid (fsRead s lmPidPath) = .ok 47 :=
  ⟨(lmFsStart lmEnv true [1] 4711 oldPidFs).states.getD 1 (fun _ => none), by
    refine List.mem_iff_getElem.2 ⟨1, by decide +kernel, ?_⟩
    rfl, by decide +kernel⟩

/-- **C64** (a failed write). The file is emptied before the new text is written: a start of letmeind that fails in between takes the pid of a running letmeind
away, and letmeinfwd refuses the next connection and ends (`/repo/letmeinfwd/src/main.rs:237-240`). -/
theorem C64_failed_write : ∃ env pid fs, (lmFsStart env true [] pid fs).res = .err ∧ getLetmeindPid (fsRead fs lmPidPath) = .ok 123456 ∧
    fsRead (lmFsStart env true [] pid fs).fs lmPidPath = some [] ∧
    getLetmeindPid (fsRead (lmFsStart env true [] pid fs).fs lmPidPath) = .err :=
  ⟨{ lmEnv with ok := fun i => i ≠ 8 }, 4711, oldPidFs, by decide +kernel⟩

/-! ## C65: who can connect to the socket -/

/-- Nobody listens at the path. -/
def NotLive (fs : Fs) : Prop := ∀ n, fs fwdSockPath = some n → n.kind ≠ .sock true

/-- The directory belongs to root and the group, and others may not search it. -/
def Guarded (gid : UInt32) (fs : Fs) : Prop := ∃ k, fs fwdDirPath = some ⟨k, 0, gid, 0o750⟩

theorem closed_of_notLive {fs : Fs} {gid : UInt32} (h : NotLive fs) : Closed fs fwdDirPath fwdSockPath gid := by
  rintro uid gids ⟨d, s, _, hs, hk, _⟩
  exact absurd hk (h s hs)

theorem closed_of_guarded {fs : Fs} {gid : UInt32} (h : Guarded gid fs) : Closed fs fwdDirPath fwdSockPath gid := by
  obtain ⟨k, hk⟩ := h
  rintro uid gids ⟨d, s, hd, _, _, hu, _⟩
  rw [hk] at hd
  injection hd with hd
  subst hd
  rcases hu with h | ⟨h, _⟩ | ⟨_, h, _⟩ | ⟨_, _, h⟩
  · exact .inl h
  · exact .inl h
  · exact .inr h
  · exact absurd (show (0o750 : Nat) &&& 1 = 0 by decide) h

theorem notLive_put {fs : Fs} {p : Str} {n : Option Node} (h : NotLive fs) (hp : fwdSockPath ≠ p) : NotLive (fs.put p n) := by
  intro x hx
  rw [put_other _ _ hp] at hx
  exact h x hx

theorem guarded_put {gid : UInt32} {fs : Fs} {p : Str} {n : Option Node} (h : Guarded gid fs) (hp : fwdDirPath ≠ p) : Guarded gid (fs.put p n) := by
  obtain ⟨k, hk⟩ := h
  exact ⟨k, by rw [put_other _ _ hp, hk]⟩

theorem fwdMakeRunSubdir_tri (env : FsEnv) (gid : UInt32) :
    FsTri NotLive NotLive (fun _ fs => NotLive fs ∧ Guarded gid fs) (fwdMakeRunSubdir env false gid) := by
  have hne : fwdSockPath ≠ fwdDirPath := by decide
  unfold fwdMakeRunSubdir
  refine fsTri_bind (M := fun _ => NotLive) ?_ fun _ => ?_
  · unfold createDirIfNotExists
    refine fsTri_bind fsTri_stat fun n => ?_
    cases n with
    | none => exact mkdir_tri fun fs _ _ _ hp _ => ⟨notLive_put hp.1 hne, notLive_put hp.1 hne⟩
    | some n =>
      simp only
      split
      · exact fsTri_fail
      · exact fsTri_pure fun _ h => h.1
  · simp only [Bool.not_false, if_true]
    refine setOwnerMode_tri fun fs n hp hn => ⟨notLive_put hp hne, notLive_put (notLive_put hp hne) hne, notLive_put (notLive_put hp hne) hne, ?_⟩
    exact ⟨n.kind, by rw [put_self]⟩

theorem fwdBindSocket_tri (env : FsEnv) (gid : UInt32) :
    FsTri (Guarded gid) (Guarded gid) (fun _ fs => Guarded gid fs ∧ fs fwdSockPath = some ⟨.sock true, 0, gid, 0o660⟩)
      (fwdBindSocket env false gid) := by
  have hne : fwdDirPath ≠ fwdSockPath := by decide
  unfold fwdBindSocket
  refine fsTri_bind (M := fun _ => Guarded gid) ?_ fun _ => ?_
  · unfold fwdRemoveSocket
    refine fsTri_bind fsTri_stat fun n => ?_
    split
    · exact unlink_tri fun fs _ hp _ => ⟨guarded_put hp.1 hne, guarded_put hp.1 hne⟩
    · exact fsTri_pure fun _ h => h.1
  · refine fsTri_bind (M := fun _ fs => Guarded gid fs ∧ ∃ u g m, fs fwdSockPath = some ⟨.sock true, u, g, m⟩) ?_ fun _ => ?_
    · exact bind_tri fun fs u g m hp => ⟨guarded_put hp hne, guarded_put hp hne, u, g, m, by rw [put_self]⟩
    · simp only [Bool.not_false, if_true]
      refine setOwnerMode_tri fun fs n hp hn => ?_
      obtain ⟨hg, u, g, m, hs⟩ := hp
      rw [hs] at hn
      injection hn with hn
      subst hn
      exact ⟨guarded_put hg hne, guarded_put (guarded_put hg hne) hne, guarded_put (guarded_put hg hne) hne, by rw [put_self]⟩

/-- The whole start-up. -/
theorem fwdFsStart_tri (env : FsEnv) (gid : UInt32) (between : Bool) (chunks : List Nat) (pid : UInt32) :
    FsTri NotLive (fun fs => NotLive fs ∨ Guarded gid fs)
      (fun _ fs => Guarded gid fs ∧ fs fwdSockPath = some ⟨.sock true, 0, gid, 0o660⟩)
      (fwdFsStart env false gid between chunks pid) := by
  have weaken : ∀ {α : Type} {P S S' : Fs → Prop} {Q : α → Fs → Prop} {p : FsM α}, FsTri P S Q p → (∀ fs, S fs → S' fs) → FsTri P S' Q p :=
    fun h hs fs hp => ⟨fun s hm => hs s ((h fs hp).1 s hm), (h fs hp).2⟩
  unfold fwdFsStart
  refine fsTri_bind (weaken (fwdMakeRunSubdir_tri env gid) fun _ => .inl) fun _ => ?_
  refine fsTri_bind (M := fun _ => Guarded gid) ?_ fun _ => ?_
  · cases between with
    | true => exact fsTri_pure fun _ h => h.2
    | false => exact fsTri_fail
  · refine fsTri_bind (weaken (fwdBindSocket_tri env gid) fun _ => .inr) fun _ => ?_
    have hpres := makePidfile_pres (P := fun fs => Guarded gid fs ∧ fs fwdSockPath = some ⟨.sock true, 0, gid, 0o660⟩)
      (env := env) (path := fwdPidPath) (chunks := chunks) (pid := pid) fun fs c u g m h =>
        ⟨guarded_put h.1 (by decide), by rw [put_other _ _ (by decide)]; exact h.2⟩
    exact weaken hpres fun _ h => .inr h.1

/-- **C65**. letmeinfwd without systemd, outside test mode, started as any user with any umask, in a run directory with any content and any
permissions: at no moment, between any two system calls of its start-up and whatever fails, can a process connect to its
socket that is neither root's nor in the group letmeind. -/
theorem C65_never_open (env : FsEnv) (gid : UInt32) (between : Bool) (chunks : List Nat) (pid : UInt32) (fs : Fs)
    (h0 : ∀ n, fs fwdSockPath = some n → n.kind ≠ .sock true) (s : Fs)
    (hs : s ∈ (fwdFsStart env false gid between chunks pid fs).states) : Closed s fwdDirPath fwdSockPath gid := by
  rcases (fwdFsStart_tri env gid between chunks pid fs h0).1 s hs with h | h
  · exact closed_of_notLive h
  · exact closed_of_guarded h

/-- **C65** (and it is usable). After a successful start-up every process with the group letmeind can connect. -/
theorem C65_open_for_group (env : FsEnv) (gid : UInt32) (between : Bool) (chunks : List Nat) (pid : UInt32) (fs : Fs)
    (h0 : ∀ n, fs fwdSockPath = some n → n.kind ≠ .sock true)
    (h : (fwdFsStart env false gid between chunks pid fs).res = .ok ()) (uid : UInt32) (gids : List UInt32) (hg : gid ∈ gids) :
    CanConnect (fwdFsStart env false gid between chunks pid fs).fs fwdDirPath fwdSockPath uid gids := by
  obtain ⟨⟨k, hk⟩, hsock⟩ := (fwdFsStart_tri env gid between chunks pid fs h0).2 () h
  refine ⟨_, _, hk, hsock, rfl, ?_, ?_⟩
  · by_cases hu : uid = 0
    · exact .inl hu
    · exact .inr (.inr (.inl ⟨hu, hg, show (0o750 : Nat) / 8 &&& 1 ≠ 0 by decide⟩))
  · by_cases hu : uid = 0
    · exact .inl hu
    · exact .inr (.inr (.inl ⟨hu, hg, show (0o660 : Nat) / 8 &&& 2 ≠ 0 by decide⟩))

/-- Root's process with a careless umask. -/
def fwdEnv : FsEnv := { uid := 0, gid := 0, umask := 0, ok := fun _ => true }
/-- A directory everybody may use, with a socket left over by an earlier process. -/
def staleFs : Fs := fun p =>
  if p = fwdDirPath then some ⟨.dir, 1000, 1000, 0o777⟩
  else if p = fwdSockPath then some ⟨.sock false, 1000, 1000, 0o777⟩ else none

/-- Start-up succeeds there with eight system calls; in between the socket itself has mode 777. -/
example : (fwdFsStart fwdEnv false 976 true [] 99 staleFs).res = .ok () ∧ (fwdFsStart fwdEnv false 976 true [] 99 staleFs).states.length = 8 ∧
    ((fwdFsStart fwdEnv false 976 true [] 99 staleFs).states.map fun s => (s fwdSockPath).map (·.mode)) =
      [some 0o777, some 0o777, none, some 0o777, some 0o777, some 0o660, some 0o660, some 0o660] ∧
    (∀ n, staleFs fwdSockPath = some n → n.kind ≠ .sock true) := by
  refine ⟨by decide +kernel, by decide +kernel, by decide +kernel, ?_⟩
  intro n hn
  have : n = ⟨.sock false, 1000, 1000, 0o777⟩ := by
    have h : staleFs fwdSockPath = some ⟨.sock false, 1000, 1000, 0o777⟩ := by decide +kernel
    rw [h] at hn; injection hn with hn; exact hn.symm
  subst this
  decide

end Letmein.Props
