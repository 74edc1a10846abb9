import Verif.Props.RunDir

/-!
# C121: who can forge the pid file of letmeind

letmeinfwd serves the process whose pid is in `/run/letmeind/letmeind.pid`, and its socket is open for the whole group letmeind (C65). So whoever can
change that file can make letmeinfwd open ports.
-/

namespace Letmein.Spec
open Letmein

/-- The process can change what is found under the name of the file: as root, as owner of the directory (who may change its mode), by replacing the
directory entry, or by writing to the file (whose owner may change its mode). The parent of the directory is `/run`, which is root's. -/
def CanForge (fs : Fs) (dir file : Str) (uid : UInt32) (gids : List UInt32) : Prop :=
  uid = 0 ∨ ∃ d, fs dir = some d ∧ (uid = d.uid ∨
    MayUse d uid gids 1 ∧ (MayUse d uid gids 2 ∨ ∃ f, fs file = some f ∧ (uid = f.uid ∨ MayUse f uid gids 2)))

/-- Nobody but root and the user can. -/
def Unforgeable (fs : Fs) (dir file : Str) (user : UInt32) : Prop :=
  ∀ uid gids, CanForge fs dir file uid gids → uid = 0 ∨ uid = user

/-- Belongs to the user or to root, and only the owner may write to it. -/
def Node.OwnedBy (n : Node) (user : UInt32) : Prop :=
  (n.uid = user ∨ n.uid = 0) ∧ n.mode.testBit 4 = false ∧ n.mode.testBit 1 = false

/-- Processes that are neither root's nor the user's change directory entries that they may change: the directory itself only as its owner, the file
if they can forge it, anything else at will. -/
inductive OthersDo (dir file : Str) (user : UInt32) : Fs → Fs → Prop
  | done (fs : Fs) : OthersDo dir file user fs fs
  | step {fs fs' fs'' : Fs} (uid : UInt32) (gids : List UInt32) : uid ≠ 0 → uid ≠ user →
      (fs' dir ≠ fs dir → ∃ d, fs dir = some d ∧ uid = d.uid) → (fs' file ≠ fs file → CanForge fs dir file uid gids) →
      OthersDo dir file user fs' fs'' → OthersDo dir file user fs fs''

end Letmein.Spec

namespace Letmein.Props
open Letmein Spec

/-- Owner and mode. -/
def metaOf (n : Node) : UInt32 × UInt32 × Nat := (n.uid, n.gid, n.mode)

/-- Owner and mode of something new. -/
def freshMeta (env : FsEnv) (mode : Nat) : UInt32 × UInt32 × Nat := (env.uid, env.gid, mode &&& (0o777 ^^^ (env.umask &&& 0o777)))

/-- The entry has the owner and mode it had in the beginning, or it is new. -/
def KeptOrNew (env : FsEnv) (mode : Nat) (old now : Option Node) : Prop :=
  ∀ n, now = some n → metaOf n = match old with
    | some o => metaOf o
    | none => freshMeta env mode

structure PidInv (env : FsEnv) (fs0 fs : Fs) : Prop where
  dir : KeptOrNew env 0o777 (fs0 lmDirPath) (fs lmDirPath)
  file : KeptOrNew env 0o666 (fs0 lmPidPath) (fs lmPidPath)

theorem keptOrNew_refl (env : FsEnv) (mode : Nat) (o : Option Node) : KeptOrNew env mode o o := by
  intro n h
  subst h
  rfl

theorem createDir_pid (env : FsEnv) (ok : Bool) (fs0 : Fs) :
    FsTri (fun fs => fs = fs0) (PidInv env fs0) (fun _ fs => PidInv env fs0 fs ∧ (fs lmDirPath).isSome ∧ fs lmPidPath = fs0 lmPidPath)
      (createDirIfNotExists env ok lmDirPath) := by
  unfold createDirIfNotExists
  refine fsTri_bind fsTri_stat fun n => ?_
  cases n with
  | none =>
    refine fsTri_call fun fs fs' hp hf => ?_
    obtain ⟨rfl, h2⟩ := hp
    rw [h2] at hf
    simp only [Option.some.injEq] at hf
    subst hf
    have hi : PidInv env fs (fs.put lmDirPath (some ⟨.dir, env.uid, env.gid, 0o777 &&& (0o777 ^^^ (env.umask &&& 0o777))⟩)) := by
      constructor
      · rw [put_self, h2]
        intro n hn
        injection hn with hn
        subst hn
        rfl
      · rw [put_other _ _ (by decide)]
        exact keptOrNew_refl _ _ _
    exact ⟨hi, hi, by rw [put_self]; rfl, put_other _ _ (by decide)⟩
  | some n =>
    simp only
    split
    · exact fsTri_fail
    · refine fsTri_pure fun fs h => ?_
      obtain ⟨rfl, h2⟩ := h
      exact ⟨⟨keptOrNew_refl _ _ _, keptOrNew_refl _ _ _⟩, by rw [h2]; rfl, rfl⟩

theorem write_pid {P : Fs → Prop}
    (hP : ∀ fs c c' u g m, P fs → fs lmPidPath = some ⟨.file c, u, g, m⟩ → P (fs.put lmPidPath (some ⟨.file c', u, g, m⟩))) :
    ∀ (chunks : List Nat) (ok : Nat → Bool) (text : Str), FsTri P P (fun _ fs => P fs) (writeAll ok lmPidPath chunks text) := by
  have hw : ∀ ok data, FsTri P P (fun _ fs => P fs) (writeCall ok lmPidPath data) := by
    intro ok data
    refine fsTri_call fun fs fs' hp hf => ?_
    split at hf
    · injection hf with hf; subst hf
      exact ⟨hP fs _ _ _ _ _ hp (by assumption), hP fs _ _ _ _ _ hp (by assumption)⟩
    · cases hf
  intro chunks
  induction chunks with
  | nil =>
    intro ok text
    cases text with
    | nil => exact fsTri_pure fun _ h => h
    | cons c t => exact hw _ _
  | cons k chunks ih =>
    intro ok text
    cases text with
    | nil => exact fsTri_pure fun _ h => h
    | cons c t => exact fsTri_bind (hw _ _) fun _ => ih _ _

theorem lmFsStart_pid (env : FsEnv) (between : Bool) (chunks : List Nat) (pid : UInt32) (fs0 : Fs) :
    FsTri (fun fs => fs = fs0) (PidInv env fs0) (fun _ fs => PidInv env fs0 fs ∧ (fs lmDirPath).isSome ∧ (fs lmPidPath).isSome)
      (lmFsStart env between chunks pid) := by
  unfold lmFsStart
  refine fsTri_bind (createDir_pid env _ fs0) fun _ => ?_
  refine fsTri_bind (M := fun _ fs => PidInv env fs0 fs ∧ (fs lmDirPath).isSome ∧ fs lmPidPath = fs0 lmPidPath) ?_ fun _ => ?_
  · cases between with
    | true => exact fsTri_pure fun _ h => h
    | false => exact fsTri_fail
  have weaken : ∀ {P S S' : Fs → Prop} {Q Q' : Unit → Fs → Prop} {p : FsM Unit}, FsTri P S Q p → (∀ fs, S fs → S' fs) → (∀ fs, Q () fs → Q' () fs) →
      FsTri P S' Q' p := fun h hs hq fs hp => ⟨fun s hm => hs s ((h fs hp).1 s hm), fun a ha => hq _ ((h fs hp).2 a ha)⟩
  unfold makePidfile
  refine fsTri_bind (M := fun _ fs => PidInv env fs0 fs ∧ (fs lmDirPath).isSome ∧ (fs lmPidPath).isSome) ?_ fun _ => ?_
  · refine fsTri_call fun fs fs' hp hf => ?_
    obtain ⟨⟨h1, h2⟩, h3, h4⟩ := hp
    have key : ∀ n : Node, (∀ m, some n = some m → metaOf m = match fs0 lmPidPath with
        | some o => metaOf o
        | none => freshMeta env 0o666) → PidInv env fs0 (fs.put lmPidPath (some n)) ∧
        ((fs.put lmPidPath (some n)) lmDirPath).isSome ∧ ((fs.put lmPidPath (some n)) lmPidPath).isSome := by
      intro n hn
      refine ⟨⟨?_, ?_⟩, ?_, by rw [put_self]; rfl⟩
      · rw [put_other _ _ (by decide)]; exact h1
      · rw [put_self]; exact hn
      · rw [put_other _ _ (by decide)]; exact h3
    split at hf
    · rename_i hnone
      injection hf with hf
      subst hf
      have := key ⟨.file [], env.uid, env.gid, 0o666 &&& (0o777 ^^^ (env.umask &&& 0o777))⟩ (by
        intro m hm
        injection hm with hm
        subst hm
        rw [← h4, hnone]
        rfl)
      exact ⟨this.1, this⟩
    · rename_i n hsome
      split at hf
      · injection hf with hf
        subst hf
        have := key { n with kind := .file [] } (by
          intro m hm
          injection hm with hm
          subst hm
          rw [← h4, hsome]
          rfl)
        exact ⟨this.1, this⟩
      · cases hf
  · refine weaken (write_pid (P := fun fs => PidInv env fs0 fs ∧ (fs lmDirPath).isSome ∧ (fs lmPidPath).isSome) ?_ _ _ _)
      (fun _ h => h.1) fun _ h => h
    rintro fs c c' u g m ⟨⟨h1, h2⟩, h3, h4⟩ hf
    refine ⟨⟨?_, ?_⟩, ?_, by rw [put_self]; rfl⟩
    · rw [put_other _ _ (by decide)]; exact h1
    · rw [put_self]
      intro n hn
      injection hn with hn
      subst hn
      exact h2 ⟨.file c, u, g, m⟩ hf
    · rw [put_other _ _ (by decide)]; exact h3

/-- The permission bits that are left by a umask; a whole table. -/
theorem masked_bits : ∀ u < 512, ∀ mode ∈ [0o777, 0o666], ∀ i < 9,
    (mode &&& (0o777 ^^^ u)).testBit i = (mode.testBit i && !u.testBit i) := by decide +kernel

theorem fresh_bits {env : FsEnv} {mode : Nat} (hm : mode ∈ [0o777, 0o666]) {i : Nat} (hi : i < 9) :
    (freshMeta env mode).2.2.testBit i = (mode.testBit i && !env.umask.testBit i) := by
  have h := masked_bits (env.umask &&& 0o777) (Nat.lt_of_le_of_lt Nat.and_le_right (by decide)) mode hm i hi
  show (mode &&& (0o777 ^^^ (env.umask &&& 0o777))).testBit i = _
  rw [h, Nat.testBit_and]
  have : ∀ i < 9, (0o777 : Nat).testBit i = true := by decide
  rw [this i hi, Bool.and_true]

theorem and_bit (m i : Nat) : m &&& 2 ^ i ≠ 0 ↔ m.testBit i = true := by
  constructor
  · intro h
    cases e : m.testBit i with
    | true => rfl
    | false =>
      refine absurd (Nat.eq_of_testBit_eq fun j => ?_) h
      rw [Nat.testBit_and, Nat.testBit_two_pow, Nat.zero_testBit]
      by_cases hj : i = j
      · subst hj; rw [e]; rfl
      · simp [hj]
  · intro h e
    have := congrArg (·.testBit i) e
    simp only [Nat.testBit_and, Nat.testBit_two_pow, Nat.zero_testBit, h] at this
    simp at this

theorem mayUse_iff (n : Node) (uid : UInt32) (gids : List UInt32) (i : Nat) (hi : i < 3) :
    MayUse n uid gids (2 ^ i) ↔ uid = 0 ∨ (uid = n.uid ∧ n.mode.testBit (6 + i) = true) ∨
      (uid ≠ n.uid ∧ n.gid ∈ gids ∧ n.mode.testBit (3 + i) = true) ∨ (uid ≠ n.uid ∧ n.gid ∉ gids ∧ n.mode.testBit i = true) := by
  unfold MayUse
  rw [and_bit, and_bit, and_bit]
  have e6 : (n.mode / 64).testBit i = n.mode.testBit (6 + i) := by
    rw [show (64 : Nat) = 2 ^ 6 by rfl, Nat.testBit_div_two_pow, Nat.add_comm]
  have e3 : (n.mode / 8).testBit i = n.mode.testBit (3 + i) := by
    rw [show (8 : Nat) = 2 ^ 3 by rfl, Nat.testBit_div_two_pow, Nat.add_comm]
  rw [e6, e3]

theorem owned_write {n : Node} {user : UInt32} (h : Node.OwnedBy n user) {uid : UInt32} {gids : List UInt32} (hw : MayUse n uid gids 2) :
    uid = 0 ∨ uid = user := by
  rcases (mayUse_iff n uid gids 1 (by decide)).1 hw with h1 | ⟨h1, _⟩ | ⟨_, _, h1⟩ | ⟨_, _, h1⟩
  · exact .inl h1
  · rcases h.1 with h2 | h2
    · exact .inr (h1.trans h2)
    · exact .inl (h1.trans h2)
  · exact absurd h1 (by rw [h.2.1]; decide)
  · exact absurd h1 (by rw [h.2.2]; decide)

theorem owned_unforgeable {fs : Fs} {dir file : Str} {user : UInt32} (hd : ∀ n, fs dir = some n → Node.OwnedBy n user)
    (hf : ∀ n, fs file = some n → Node.OwnedBy n user) : Unforgeable fs dir file user := by
  rintro uid gids (h | ⟨d, h1, h2⟩)
  · exact .inl h
  have own : ∀ {n : Node}, Node.OwnedBy n user → uid = n.uid → uid = 0 ∨ uid = user := by
    intro n hn e
    rcases hn.1 with h2 | h2
    · exact .inr (e.trans h2)
    · exact .inl (e.trans h2)
  rcases h2 with h2 | ⟨_, h2 | ⟨f, h3, h4 | h4⟩⟩
  · exact own (hd d h1) h2
  · exact owned_write (hd d h1) h2
  · exact own (hf f h3) h4
  · exact owned_write (hf f h3) h4

theorem ownedBy_meta {n : Node} {m : UInt32 × UInt32 × Nat} (h : metaOf n = m) {user : UInt32} (h1 : m.1 = user ∨ m.1 = 0)
    (h2 : m.2.2.testBit 4 = false) (h3 : m.2.2.testBit 1 = false) : Node.OwnedBy n user := by
  subst h
  exact ⟨h1, h2, h3⟩

/-- **C121** (partial: it takes a umask and a former content of the run directory that do not let others write). letmeind is started as any user with a
umask that takes the write permission from group and others; its directory and pid file do not exist yet, or belong to that user or to root and are
writable for the owner only. Then at no moment, between any two system calls of its start-up and whatever fails, can anybody but root and that user
forge the pid file. -/
theorem C121_unforgeable_partial (env : FsEnv) (between : Bool) (chunks : List Nat) (pid : UInt32) (fs : Fs) (hg : env.umask.testBit 4 = true)
    (ho : env.umask.testBit 1 = true) (hd : ∀ n, fs lmDirPath = some n → Node.OwnedBy n env.uid)
    (hf : ∀ n, fs lmPidPath = some n → Node.OwnedBy n env.uid) (s : Fs) (hs : s ∈ (lmFsStart env between chunks pid fs).states) :
    Unforgeable s lmDirPath lmPidPath env.uid := by
  have h := (lmFsStart_pid env between chunks pid fs fs rfl).1 s hs
  have fresh : ∀ {n mode}, mode ∈ [0o777, 0o666] → metaOf n = freshMeta env mode → Node.OwnedBy n env.uid := by
    intro n mode hm hn
    refine ownedBy_meta hn (.inl rfl) ?_ ?_
    · rw [fresh_bits hm (by decide), hg]; simp
    · rw [fresh_bits hm (by decide), ho]; simp
  refine owned_unforgeable (fun n hn => ?_) fun n hn => ?_
  · have h1 := h.dir n hn
    cases e : fs lmDirPath with
    | none => rw [e] at h1; exact fresh (by decide) h1
    | some o =>
      rw [e] at h1
      have h2 := hd o e
      exact ownedBy_meta h1 h2.1 h2.2.1 h2.2.2
  · have h1 := h.file n hn
    cases e : fs lmPidPath with
    | none => rw [e] at h1; exact fresh (by decide) h1
    | some o =>
      rw [e] at h1
      have h2 := hf o e
      exact ownedBy_meta h1 h2.1 h2.2.1 h2.2.2

/-- C121: exactly when, if letmeind makes directory and file itself. After a successful start nobody but root and letmeind's user can forge the pid file
if and only if the umask takes the permission to write or the one to search from the group, and likewise from the others. -/
theorem C121_fresh_iff (env : FsEnv) (between : Bool) (chunks : List Nat) (pid : UInt32) (fs : Fs)
    (h : (lmFsStart env between chunks pid fs).res = .ok ()) (hd : fs lmDirPath = none) (hf : fs lmPidPath = none) :
    Unforgeable (lmFsStart env between chunks pid fs).fs lmDirPath lmPidPath env.uid ↔
      (env.umask.testBit 4 = true ∨ env.umask.testBit 3 = true) ∧ (env.umask.testBit 1 = true ∨ env.umask.testBit 0 = true) := by
  obtain ⟨⟨i1, i2⟩, s1, s2⟩ := (lmFsStart_pid env between chunks pid fs fs rfl).2 () h
  generalize (lmFsStart env between chunks pid fs).fs = t at *
  obtain ⟨d, e1⟩ := Option.isSome_iff_exists.1 s1
  obtain ⟨f, e2⟩ := Option.isSome_iff_exists.1 s2
  have m1 := i1 d e1
  have m2 := i2 f e2
  rw [hd] at m1
  rw [hf] at m2
  simp only [metaOf] at m1 m2
  have du : d.uid = env.uid := congrArg (·.1) m1
  have dg : d.gid = env.gid := congrArg (·.2.1) m1
  have fu : f.uid = env.uid := congrArg (·.1) m2
  have fg : f.gid = env.gid := congrArg (·.2.1) m2
  have db : ∀ i < 9, d.mode.testBit i = !env.umask.testBit i := by
    intro i hi
    have e : d.mode = (freshMeta env 0o777).2.2 := congrArg (·.2.2) m1
    rw [e, fresh_bits (by decide) hi]
    have : ∀ i < 9, (0o777 : Nat).testBit i = true := by decide
    rw [this i hi, Bool.true_and]
  have fb : ∀ i < 9, f.mode.testBit i = ((0o666 : Nat).testBit i && !env.umask.testBit i) := by
    intro i hi
    have e : f.mode = (freshMeta env 0o666).2.2 := congrArg (·.2.2) m2
    rw [e, fresh_bits (by decide) hi]
  constructor
  · intro hu
    -- a stranger, with and without the group
    obtain ⟨x, hx0, hxu⟩ : ∃ x : UInt32, x ≠ 0 ∧ x ≠ env.uid := by
      by_cases hv : env.uid = 1
      · exact ⟨2, by decide, by rw [hv]; decide⟩
      · exact ⟨1, by decide, fun h => hv h.symm⟩
    constructor
    · by_cases hw : env.umask.testBit 4 = true
      · exact .inl hw
      by_cases hs : env.umask.testBit 3 = true
      · exact .inr hs
      exfalso
      have : CanForge t lmDirPath lmPidPath x [env.gid] := by
        refine .inr ⟨d, e1, .inr ⟨(mayUse_iff d x _ 0 (by decide)).2 (.inr (.inr (.inl ⟨du ▸ hxu, by rw [dg]; simp, ?_⟩))),
          .inl ((mayUse_iff d x _ 1 (by decide)).2 (.inr (.inr (.inl ⟨du ▸ hxu, by rw [dg]; simp, ?_⟩))))⟩⟩
        · rw [db _ (by decide)]; simpa using hs
        · rw [db _ (by decide)]; simpa using hw
      rcases hu x _ this with h | h
      · exact hx0 h
      · exact hxu h
    · by_cases hw : env.umask.testBit 1 = true
      · exact .inl hw
      by_cases hs : env.umask.testBit 0 = true
      · exact .inr hs
      exfalso
      have : CanForge t lmDirPath lmPidPath x [] := by
        refine .inr ⟨d, e1, .inr ⟨(mayUse_iff d x _ 0 (by decide)).2 (.inr (.inr (.inr ⟨du ▸ hxu, by simp, ?_⟩))),
          .inl ((mayUse_iff d x _ 1 (by decide)).2 (.inr (.inr (.inr ⟨du ▸ hxu, by simp, ?_⟩))))⟩⟩
        · rw [db _ (by decide)]; simpa using hs
        · rw [db _ (by decide)]; simpa using hw
      rcases hu x _ this with h | h
      · exact hx0 h
      · exact hxu h
  · rintro ⟨hg, ho⟩ uid gids (hr | ⟨d', e, hc⟩)
    · exact .inl hr
    rw [e1] at e
    injection e with e
    subst e
    by_cases h0 : uid = 0
    · exact .inl h0
    by_cases hu : uid = env.uid
    · exact .inr hu
    exfalso
    have hud : uid ≠ d.uid := by rw [du]; exact hu
    have huf : uid ≠ f.uid := by rw [fu]; exact hu
    have wr : ∀ {n : Node}, n.gid = env.gid → uid ≠ n.uid → n.mode.testBit 4 = !env.umask.testBit 4 → n.mode.testBit 1 = !env.umask.testBit 1 →
        MayUse n uid gids 2 → (env.gid ∈ gids ∧ env.umask.testBit 4 = false) ∨ (env.gid ∉ gids ∧ env.umask.testBit 1 = false) := by
      intro n h1 h2 h3 h4 h5
      rcases (mayUse_iff n uid gids 1 (by decide)).1 h5 with h | ⟨h, _⟩ | ⟨_, a, b⟩ | ⟨_, a, b⟩
      · exact absurd h h0
      · exact absurd h h2
      · have b' : n.mode.testBit 4 = true := b
        rw [h3] at b'
        exact .inl ⟨h1 ▸ a, by simpa using b'⟩
      · rw [h4] at b
        exact .inr ⟨h1 ▸ a, by simpa using b⟩
    rcases hc with hc | ⟨hs, hw⟩
    · exact hud hc
    have hs' : (env.gid ∈ gids ∧ env.umask.testBit 3 = false) ∨ (env.gid ∉ gids ∧ env.umask.testBit 0 = false) := by
      rcases (mayUse_iff d uid gids 0 (by decide)).1 hs with h | ⟨h, _⟩ | ⟨_, a, b⟩ | ⟨_, a, b⟩
      · exact absurd h h0
      · exact absurd h hud
      · rw [db _ (by decide)] at b
        exact .inl ⟨dg ▸ a, by simpa using b⟩
      · rw [db _ (by decide)] at b
        exact .inr ⟨dg ▸ a, by simpa using b⟩
    have hw' : (env.gid ∈ gids ∧ env.umask.testBit 4 = false) ∨ (env.gid ∉ gids ∧ env.umask.testBit 1 = false) := by
      rcases hw with hw | ⟨f', e, hw⟩
      · exact wr dg hud (db _ (by decide)) (db _ (by decide)) hw
      · rw [e2] at e
        injection e with e
        subst e
        rcases hw with hw | hw
        · exact absurd hw huf
        · exact wr fg huf (by rw [fb _ (by decide)]; rfl) (by rw [fb _ (by decide)]; rfl) hw
    rcases hs' with ⟨a, b⟩ | ⟨a, b⟩ <;> rcases hw' with ⟨a', b'⟩ | ⟨a', b'⟩
    · rcases hg with h | h
      · rw [b'] at h; cases h
      · rw [b] at h; cases h
    · exact a' a
    · exact a a'
    · rcases ho with h | h
      · rw [b'] at h; cases h
      · rw [b] at h; cases h

theorem others_keep {dir file : Str} {user : UInt32} {fs fs' : Fs} (h : OthersDo dir file user fs fs') (hu : Unforgeable fs dir file user) :
    fs' file = fs file := by
  induction h with
  | done => rfl
  | @step fs fs' fs'' uid gids h0 h1 hd hf _ ih =>
    have no : ¬ CanForge fs dir file uid gids := fun h => by
      rcases hu uid gids h with h | h
      · exact h0 h
      · exact h1 h
    have ef : fs' file = fs file := by
      by_cases e : fs' file = fs file
      · exact e
      · exact absurd (hf e) no
    have ed : fs' dir = fs dir := by
      by_cases e : fs' dir = fs dir
      · exact e
      · obtain ⟨d, a, b⟩ := hd e
        exact absurd (.inr ⟨d, a, .inl b⟩) no
    have : Unforgeable fs' dir file user := by
      intro u g hc
      refine hu u g ?_
      unfold CanForge at hc ⊢
      rw [ed, ef] at hc
      exact hc
    rw [ih this, ef]

/-- C121: so, after a successful start under these conditions, whatever other users' processes do, letmeinfwd reads letmeind's pid. -/
theorem C121_stays (env : FsEnv) (between : Bool) (chunks : List Nat) (pid : UInt32) (fs fs' : Fs)
    (h : (lmFsStart env between chunks pid fs).res = .ok ())
    (hu : Unforgeable (lmFsStart env between chunks pid fs).fs lmDirPath lmPidPath env.uid)
    (ho : OthersDo lmDirPath lmPidPath env.uid (lmFsStart env between chunks pid fs).fs fs') :
    getLetmeindPid (fsRead fs' lmPidPath) = if pid.toNat ≤ 2147483647 then .ok (pid.toNat : Int) else .err := by
  rw [← C64_pid_round_trip env between chunks pid fs h]
  have := others_keep ho hu
  unfold fsRead
  rw [this]

/-! ## Examples -/

/-- letmeind's user with the umask that systemd sets. -/
def pidEnv : FsEnv := { uid := 976, gid := 976, umask := 0o022, ok := fun _ => true }

/-- `RuntimeDirectory=letmeind`, `RuntimeDirectoryMode=0750`, `User=letmeind`, `Group=letmeind` (`/repo/letmeind/letmeind.service:12-19`). -/
def systemdFs : Fs := fun p => if p = lmDirPath then some ⟨.dir, 976, 976, 0o750⟩ else none

/-- Started by systemd. -/
theorem systemd_pid : (lmFsStart pidEnv true [1] 4711 systemdFs).res = .ok () ∧
    ∀ s ∈ (lmFsStart pidEnv true [1] 4711 systemdFs).states, Unforgeable s lmDirPath lmPidPath 976 := by
  refine ⟨by decide +kernel, C121_unforgeable_partial pidEnv true [1] 4711 systemdFs (by decide) (by decide) (fun n hn => ?_) fun n hn => ?_⟩
  · have e : systemdFs lmDirPath = some ⟨.dir, 976, 976, 0o750⟩ := by decide
    rw [e] at hn
    injection hn with hn
    subst hn
    exact ⟨.inl rfl, by decide, by decide⟩
  · have e : systemdFs lmPidPath = none := by decide
    rw [e] at hn
    cases hn

example : Unforgeable (lmFsStart pidEnv true [] 4711 (fun _ => none)).fs lmDirPath lmPidPath 976 :=
  (C121_fresh_iff pidEnv true [] 4711 _ (by decide +kernel) rfl rfl).2 ⟨.inl (by decide), .inl (by decide)⟩

/-- Then others may do what they like elsewhere. -/
example (fs' : Fs) (h : OthersDo lmDirPath lmPidPath 976 (lmFsStart pidEnv true [] 4711 (fun _ => none)).fs fs') :
    getLetmeindPid (fsRead fs' lmPidPath) = .ok 4711 :=
  C121_stays pidEnv true [] 4711 _ fs' (by decide +kernel)
    ((C121_fresh_iff pidEnv true [] 4711 _ (by decide +kernel) rfl rfl).2 ⟨.inl (by decide), .inl (by decide)⟩) h

/-- **C121 is false** in general: letmeind does not set owner and mode of its directory and its file, as letmeinfwd does. Started by hand with an
empty umask, everybody can forge the pid file. -/
theorem C121_negation_umask : ∃ (env : FsEnv) (pid : UInt32) (fs : Fs), fs lmDirPath = none ∧ fs lmPidPath = none ∧
    (lmFsStart env true [] pid fs).res = .ok () ∧ ∀ uid gids, CanForge (lmFsStart env true [] pid fs).fs lmDirPath lmPidPath uid gids := by
  refine ⟨{ pidEnv with umask := 0 }, 4711, fun _ => none, rfl, rfl, by decide +kernel, fun uid gids => .inr ?_⟩
  have e : (lmFsStart { pidEnv with umask := 0 } true [] 4711 (fun _ => none)).fs lmDirPath = some ⟨.dir, 976, 976, 0o777⟩ := by decide +kernel
  refine ⟨_, e, .inr ⟨(mayUse_iff _ uid gids 0 (by decide)).2 ?_, .inl ((mayUse_iff _ uid gids 1 (by decide)).2 ?_)⟩⟩ <;>
  · by_cases h1 : uid = 976
    · exact .inr (.inl ⟨h1, by decide⟩)
    · by_cases h2 : (976 : UInt32) ∈ gids
      · exact .inr (.inr (.inl ⟨h1, h2, by decide⟩))
      · exact .inr (.inr (.inr ⟨h1, h2, by decide⟩))

/-- **C121 is false** in general, even with the umask of systemd: a directory that exists already is taken as it is. Here it belongs to another user,
who can forge the pid file. -/
theorem C121_negation_kept : ∃ (fs : Fs) (uid : UInt32), uid ≠ 0 ∧ uid ≠ pidEnv.uid ∧ (lmFsStart pidEnv true [] 4711 fs).res = .ok () ∧
    CanForge (lmFsStart pidEnv true [] 4711 fs).fs lmDirPath lmPidPath uid [] := by
  refine ⟨fun p => if p = lmDirPath then some ⟨.dir, 1000, 976, 0o770⟩ else none, 1000, by decide, by decide, by decide +kernel, .inr ⟨⟨.dir, 1000, 976, 0o770⟩, ?_, .inl rfl⟩⟩
  decide +kernel

end Letmein.Props
