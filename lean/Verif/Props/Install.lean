import Verif.Spec.Install
import Verif.Lemmas.RunDir

/-!
# Property C106: installed keys and programs
-/

namespace Letmein.Props

open Letmein Spec

theorem fsTri_weaken {α : Type} {P S S' : Fs → Prop} {Q Q' : α → Fs → Prop} {p : FsM α} (h : FsTri P S Q p)
    (hs : ∀ fs, S fs → S' fs) (hq : ∀ a fs, Q a fs → Q' a fs) : FsTri P S' Q' p :=
  fun fs hp => ⟨fun s hm => hs s ((h fs hp).1 s hm), fun a ha => hq a _ ((h fs hp).2 a ha)⟩

/-- Code that touches nothing a predicate is about. -/
abbrev FsPres {α : Type} (P : Fs → Prop) (p : FsM α) : Prop := FsTri P P (fun _ fs => P fs) p

/-- The predicate does not depend on what is at the path. -/
def Ignores (P : Fs → Prop) (path : Str) : Prop := ∀ fs n, P fs → P (fs.put path n)

theorem ignores_node {q path : Str} {P : Option Node → Prop} (h : q ≠ path) : Ignores (fun fs => P (fs q)) path := by
  intro fs n hp
  rw [put_other _ _ h]
  exact hp

theorem fsOther_pres {P : Fs → Prop} {ok : Bool} : FsPres P (fsOther ok) := by
  unfold fsOther
  split
  · exact fsTri_pure fun _ h => h
  · exact fsTri_fail

theorem instMkdir_tri {P S : Fs → Prop} {Q : Unit → Fs → Prop} {ok : Bool} {path : Str}
    (h : ∀ fs, P fs → fs path = none → S (fs.put path (some ⟨.dir, 0, 0, 0o700⟩)) ∧ Q () (fs.put path (some ⟨.dir, 0, 0, 0o700⟩))) :
    FsTri P S Q (instMkdirCall ok path) := by
  refine fsTri_call fun fs fs' hp hf => ?_
  split at hf
  · injection hf with hf; subst hf; exact h _ hp (by assumption)
  · cases hf

theorem instCopy_tri {P S : Fs → Prop} {Q : Unit → Fs → Prop} {ok : Bool} {path c : Str}
    (h : ∀ fs, P fs → fs path = none → S (fs.put path (some ⟨.file c, 0, 0, 0o600⟩)) ∧ Q () (fs.put path (some ⟨.file c, 0, 0, 0o600⟩))) :
    FsTri P S Q (instCopyCall ok path c) := by
  refine fsTri_call fun fs fs' hp hf => ?_
  split at hf
  · injection hf with hf; subst hf; exact h _ hp (by assumption)
  · cases hf

/-- A directory is installed: nothing else changes, and it is as asked for. -/
theorem instDir_tri {P : Fs → Prop} {ok : Nat → Bool} {path : Str} {gid : UInt32} {mode : Nat} (hI : Ignores P path) :
    FsTri P P (fun _ fs => P fs ∧ fs path = some ⟨.dir, 0, gid, mode⟩) (instDir ok path gid mode) := by
  unfold instDir
  refine fsTri_bind (M := fun _ fs => P fs ∧ ∃ u g m, fs path = some ⟨.dir, u, g, m⟩) ?_ fun _ => ?_
  · unfold instDirMake
    refine fsTri_bind fsTri_stat fun n => ?_
    cases n with
    | none =>
      exact instMkdir_tri fun fs hp _ => ⟨hI _ _ hp.1, hI _ _ hp.1, _, _, _, put_self ..⟩
    | some n =>
      simp only
      split
      · exact fsTri_fail
      · rename_i hk
        refine fsTri_pure fun fs hp => ⟨hp.1, n.uid, n.gid, n.mode, ?_⟩
        rw [hp.2, ← Classical.not_not.1 hk]
  · refine fsTri_bind (M := fun _ fs => P fs ∧ ∃ m, fs path = some ⟨.dir, 0, gid, m⟩) ?_ fun _ => ?_
    · refine chown_tri fun fs n hp hn => ?_
      obtain ⟨hp, u, g, m, h⟩ := hp
      rw [h] at hn
      cases hn
      exact ⟨hI _ _ hp, hI _ _ hp, m, put_self ..⟩
    · refine chmod_tri fun fs n hp hn => ?_
      obtain ⟨hp, m, h⟩ := hp
      rw [h] at hn
      cases hn
      exact ⟨hI _ _ hp, hI _ _ hp, put_self ..⟩

/-- A file is installed: nothing else changes, and it is as asked for. -/
theorem instFile_tri {P : Fs → Prop} {ok : Nat → Bool} {c path : Str} {gid : UInt32} {mode : Nat} (hI : Ignores P path) :
    FsTri P P (fun _ fs => P fs ∧ fs path = some ⟨.file c, 0, gid, mode⟩) (instFile ok c path gid mode) := by
  unfold instFile
  refine fsTri_bind (M := fun _ fs => P fs) ?_ fun _ => ?_
  · unfold instFileClear
    refine fsTri_bind fsTri_stat fun n => ?_
    cases n with
    | none => exact fsTri_pure fun _ h => h.1
    | some n =>
      simp only
      split
      · exact fsTri_fail
      · exact unlink_tri fun fs _ hp _ => ⟨hI _ _ hp.1, hI _ _ hp.1⟩
  refine fsTri_bind (M := fun _ fs => P fs ∧ ∃ u g m, fs path = some ⟨.file c, u, g, m⟩) ?_ fun _ => ?_
  · exact instCopy_tri fun fs hp _ => ⟨hI _ _ hp, hI _ _ hp, _, _, _, put_self ..⟩
  · refine fsTri_bind (M := fun _ fs => P fs ∧ ∃ m, fs path = some ⟨.file c, 0, gid, m⟩) ?_ fun _ => ?_
    · refine chown_tri fun fs n hp hn => ?_
      obtain ⟨hp, u, g, m, h⟩ := hp
      rw [h] at hn
      cases hn
      exact ⟨hI _ _ hp, hI _ _ hp, m, put_self ..⟩
    · refine chmod_tri fun fs n hp hn => ?_
      obtain ⟨hp, m, h⟩ := hp
      rw [h] at hn
      cases hn
      exact ⟨hI _ _ hp, hI _ _ hp, put_self ..⟩

theorem instFile_pres {P : Fs → Prop} {ok : Nat → Bool} {c path : Str} {gid : UInt32} {mode : Nat} (hI : Ignores P path) :
    FsPres P (instFile ok c path gid mode) :=
  fsTri_weaken (instFile_tri hI) (fun _ h => h) (fun _ _ h => h.1)

theorem instDir_pres {P : Fs → Prop} {ok : Nat → Bool} {path : Str} {gid : UInt32} {mode : Nat} (hI : Ignores P path) :
    FsPres P (instDir ok path gid mode) :=
  fsTri_weaken (instDir_tri hI) (fun _ h => h) (fun _ _ h => h.1)

/-- A file is installed where there was nothing: it is closed until owner and mode are set. -/
theorem instFile_fresh {ok : Nat → Bool} {c path : Str} {gid : UInt32} {mode : Nat} {X : Prop} :
    FsTri (fun fs => fs path = none ∧ X)
      (fun fs => (fs path = none ∨ ∃ n', fs path = some n' ∧ n'.uid = 0 ∧ n'.kind = .file c ∧ (n'.mode = 0o600 ∨ n'.gid = gid ∧ n'.mode = mode)) ∧ X)
      (fun _ fs => fs path = some ⟨.file c, 0, gid, mode⟩ ∧ X) (instFile ok c path gid mode) := by
  unfold instFile
  refine fsTri_bind (M := fun _ fs => fs path = none ∧ X) ?_ fun _ => ?_
  · unfold instFileClear
    refine fsTri_bind fsTri_stat fun n => ?_
    cases n with
    | none => exact fsTri_pure fun _ h => h.1
    | some n =>
      intro fs hp
      rw [hp.1.1] at hp
      cases hp.2
  refine fsTri_bind (M := fun _ fs => fs path = some ⟨.file c, 0, 0, 0o600⟩ ∧ X) ?_ fun _ => ?_
  · refine instCopy_tri fun fs hp _ => ?_
    rw [put_self]
    exact ⟨⟨.inr ⟨_, rfl, rfl, rfl, .inl rfl⟩, hp.2⟩, rfl, hp.2⟩
  refine fsTri_bind (M := fun _ fs => fs path = some ⟨.file c, 0, gid, 0o600⟩ ∧ X) ?_ fun _ => ?_
  · refine chown_tri fun fs n hp hn => ?_
    rw [hp.1] at hn
    cases hn
    rw [put_self]
    exact ⟨⟨.inr ⟨_, rfl, rfl, rfl, .inl rfl⟩, hp.2⟩, rfl, hp.2⟩
  · refine chmod_tri fun fs n hp hn => ?_
    rw [hp.1] at hn
    cases hn
    rw [put_self]
    exact ⟨⟨.inr ⟨_, rfl, rfl, rfl, .inr ⟨rfl, rfl⟩⟩, hp.2⟩, rfl, hp.2⟩

/-- What the configuration file is like while and after it is installed; `old`: what was there before. -/
structure ConfStep (gid : UInt32) (mode : Nat) (c : Str) (old cur : Option Node) : Prop where
  /-- an existing one keeps its content -/
  keeps : ∀ n, old = some n → ∃ n', cur = some n' ∧ n'.kind = n.kind ∧
    (n' = n ∨ (n'.uid = 0 ∧ n'.gid = gid ∧ (n'.mode = n.mode ∨ n'.mode = mode)))
  /-- a new one is closed first -/
  fresh : old = none → cur = none ∨ ∃ n', cur = some n' ∧ n'.uid = 0 ∧ n'.kind = .file c ∧
    (n'.mode = 0o600 ∨ n'.gid = gid ∧ n'.mode = mode)

theorem installServerConf_tri (env : InstEnv) (old : Option Node) :
    FsTri (fun fs => fs serverConfFile = old) (fun fs => ConfStep env.gid 0o640 (env.src serverConfFile) old (fs serverConfFile))
      (fun _ fs => ∃ k, fs serverConfFile = some ⟨k, 0, env.gid, 0o640⟩ ∧ k = (old.map Node.kind).getD (.file (env.src serverConfFile)))
      (installServerConf env) := by
  unfold installServerConf
  refine fsTri_bind (M := fun n fs => fs serverConfFile = old ∧ fs serverConfFile = n) fsTri_stat fun n => ?_
  cases n with
  | some n =>
    refine fsTri_bind (M := fun _ fs => old = some n ∧ fs serverConfFile = some { n with uid := 0, gid := env.gid }) ?_ fun _ => ?_
    · refine chown_tri fun fs n' hp hn => ?_
      obtain ⟨h1, h2⟩ := hp
      rw [h2] at hn
      cases hn
      have ho := h1.symm.trans h2
      rw [put_self]
      exact ⟨⟨fun m hm => by rw [ho] at hm; cases hm; exact ⟨_, rfl, rfl, .inr ⟨rfl, rfl, .inl rfl⟩⟩, fun h => by rw [ho] at h; cases h⟩, ho, rfl⟩
    · refine chmod_tri fun fs n' hp hn => ?_
      obtain ⟨ho, h2⟩ := hp
      rw [h2] at hn
      cases hn
      rw [put_self]
      refine ⟨⟨fun m hm => by rw [ho] at hm; cases hm; exact ⟨_, rfl, rfl, .inr ⟨rfl, rfl, .inr rfl⟩⟩, fun h => by rw [ho] at h; cases h⟩, n.kind, rfl, ?_⟩
      rw [ho]; rfl
  | none =>
    refine fsTri_weaken (fsTri_mono (instFile_fresh (ok := env.at 4) (c := env.src serverConfFile) (path := serverConfFile) (gid := env.gid)
      (mode := 0o640) (X := old = none)) ?_) ?_ ?_
    · exact fun fs h => ⟨h.2, h.1.symm.trans h.2⟩
    · rintro fs ⟨hs, ho⟩
      exact ⟨fun n hn => (by rw [ho] at hn; cases hn), fun _ => hs⟩
    · rintro - fs ⟨hs, ho⟩
      exact ⟨_, hs, by rw [ho]; rfl⟩

theorem installClientConf_tri (env : InstEnv) (old : Option Node) :
    FsTri (fun fs => fs clientConfFile = old) (fun fs => ConfStep 0 0o644 (env.src clientConfFile) old (fs clientConfFile))
      (fun _ fs => ∃ k, fs clientConfFile = some ⟨k, 0, 0, 0o644⟩ ∧ k = (old.map Node.kind).getD (.file (env.src clientConfFile)))
      (installClientConf env) := by
  unfold installClientConf
  refine fsTri_bind (M := fun n fs => fs clientConfFile = old ∧ fs clientConfFile = n) fsTri_stat fun n => ?_
  cases n with
  | some n =>
    refine fsTri_bind (M := fun _ fs => old = some n ∧ fs clientConfFile = some { n with uid := 0, gid := 0 }) ?_ fun _ => ?_
    · refine chown_tri fun fs n' hp hn => ?_
      obtain ⟨h1, h2⟩ := hp
      rw [h2] at hn
      cases hn
      have ho := h1.symm.trans h2
      rw [put_self]
      exact ⟨⟨fun m hm => by rw [ho] at hm; cases hm; exact ⟨_, rfl, rfl, .inr ⟨rfl, rfl, .inl rfl⟩⟩, fun h => by rw [ho] at h; cases h⟩, ho, rfl⟩
    · refine chmod_tri fun fs n' hp hn => ?_
      obtain ⟨ho, h2⟩ := hp
      rw [h2] at hn
      cases hn
      rw [put_self]
      refine ⟨⟨fun m hm => by rw [ho] at hm; cases hm; exact ⟨_, rfl, rfl, .inr ⟨rfl, rfl, .inr rfl⟩⟩, fun h => by rw [ho] at h; cases h⟩, n.kind, rfl, ?_⟩
      rw [ho]; rfl
  | none =>
    refine fsTri_weaken (fsTri_mono (instFile_fresh (ok := env.at 4) (c := env.src clientConfFile) (path := clientConfFile) (gid := 0)
      (mode := 0o644) (X := old = none)) ?_) ?_ ?_
    · exact fun fs h => ⟨h.2, h.1.symm.trans h.2⟩
    · rintro fs ⟨hs, ho⟩
      exact ⟨fun n hn => (by rw [ho] at hn; cases hn), fun _ => hs⟩
    · rintro - fs ⟨hs, ho⟩
      exact ⟨_, hs, by rw [ho]; rfl⟩

/-- Before the configuration is installed it is as it was. -/
theorem confStep_same {gid : UInt32} {mode : Nat} {c : Str} (old : Option Node) : ConfStep gid mode c old old :=
  ⟨fun n hn => ⟨n, hn, rfl, .inl rfl⟩, fun h => .inl h⟩

theorem confStep_done {gid : UInt32} {mode : Nat} {c : Str} {old : Option Node} {k : NodeKind}
    (hk : k = (old.map Node.kind).getD (.file c)) : ConfStep gid mode c old (some ⟨k, 0, gid, mode⟩) := by
  cases old with
  | none => exact ⟨fun n hn => (by cases hn), fun _ => .inr ⟨_, rfl, rfl, hk, .inr ⟨rfl, rfl⟩⟩⟩
  | some m => exact ⟨fun n hn => (by cases hn; exact ⟨_, rfl, hk, .inr ⟨rfl, rfl, .inr rfl⟩⟩), fun h => (by cases h)⟩

/-- Keeping a fact through code whose states are also fine. -/
theorem fsPres_into {α : Type} {P S : Fs → Prop} {p : FsM α} (h : FsPres P p) (hs : ∀ fs, P fs → S fs) :
    FsTri P S (fun _ fs => P fs) p := fsTri_weaken h hs fun _ _ h => h

/-- The configuration throughout the server's installer. -/
theorem installServer_conf (env : InstEnv) (old : Option Node) :
    FsTri (fun fs => fs serverConfFile = old) (fun fs => ConfStep env.gid 0o640 (env.src serverConfFile) old (fs serverConfFile))
      (fun _ fs => ∃ k, fs serverConfFile = some ⟨k, 0, env.gid, 0o640⟩ ∧ k = (old.map Node.kind).getD (.file (env.src serverConfFile)))
      (installServer env) := by
  have h0 : ∀ fs : Fs, fs serverConfFile = old → ConfStep env.gid 0o640 (env.src serverConfFile) old (fs serverConfFile) :=
    fun fs h => h ▸ confStep_same _
  have h1 : ∀ fs : Fs, (∃ k, fs serverConfFile = some ⟨k, 0, env.gid, 0o640⟩ ∧ k = (old.map Node.kind).getD (.file (env.src serverConfFile))) →
      ConfStep env.gid 0o640 (env.src serverConfFile) old (fs serverConfFile) := by
    rintro fs ⟨k, h, hk⟩
    rw [h]
    exact confStep_done hk
  have ig : ∀ path, serverConfFile ≠ path → Ignores (fun fs => ∃ k, fs serverConfFile = some ⟨k, 0, env.gid, 0o640⟩ ∧
      k = (old.map Node.kind).getD (.file (env.src serverConfFile))) path := by
    intro path hne fs n h
    rw [put_other _ _ hne]
    exact h
  unfold installServer
  refine fsTri_bind (fsPres_into fsOther_pres h0) fun _ => ?_
  refine fsTri_bind (fsPres_into (instDir_pres (ignores_node (P := fun x => x = old) (by decide))) h0) fun _ => ?_
  refine fsTri_bind (fsPres_into (instDir_pres (ignores_node (P := fun x => x = old) (by decide))) h0) fun _ => ?_
  refine fsTri_bind (installServerConf_tri env old) fun _ => ?_
  refine fsTri_bind (fsPres_into (p := installFwd env) ?_ h1) fun _ => ?_
  · unfold installFwd
    refine fsTri_bind (instFile_pres (ig _ (by decide))) fun _ => ?_
    refine fsTri_bind (instFile_pres (ig _ (by decide))) fun _ => ?_
    refine fsTri_bind (instFile_pres (ig _ (by decide))) fun _ => ?_
    exact fsTri_bind fsOther_pres fun _ => fsOther_pres
  refine fsTri_bind (fsPres_into (p := installLmd env) ?_ h1) fun _ => fsPres_into fsOther_pres h1
  · unfold installLmd
    refine fsTri_bind (instFile_pres (ig _ (by decide))) fun _ => ?_
    refine fsTri_bind (instFile_pres (ig _ (by decide))) fun _ => ?_
    refine fsTri_bind (instFile_pres (ig _ (by decide))) fun _ => ?_
    exact fsTri_bind fsOther_pres fun _ => fsOther_pres

/-- The configuration throughout the client's installer. -/
theorem installClient_conf (env : InstEnv) (old : Option Node) :
    FsTri (fun fs => fs clientConfFile = old) (fun fs => ConfStep 0 0o644 (env.src clientConfFile) old (fs clientConfFile))
      (fun _ fs => ∃ k, fs clientConfFile = some ⟨k, 0, 0, 0o644⟩ ∧ k = (old.map Node.kind).getD (.file (env.src clientConfFile)))
      (installClient env) := by
  have h0 : ∀ fs : Fs, fs clientConfFile = old → ConfStep 0 0o644 (env.src clientConfFile) old (fs clientConfFile) :=
    fun fs h => h ▸ confStep_same _
  have h1 : ∀ fs : Fs, (∃ k, fs clientConfFile = some ⟨k, 0, 0, 0o644⟩ ∧ k = (old.map Node.kind).getD (.file (env.src clientConfFile))) →
      ConfStep 0 0o644 (env.src clientConfFile) old (fs clientConfFile) := by
    rintro fs ⟨k, h, hk⟩
    rw [h]
    exact confStep_done hk
  unfold installClient
  refine fsTri_bind (fsPres_into fsOther_pres h0) fun _ => ?_
  refine fsTri_bind (fsPres_into (instDir_pres (ignores_node (P := fun x => x = old) (by decide))) h0) fun _ => ?_
  refine fsTri_bind (fsPres_into (instDir_pres (ignores_node (P := fun x => x = old) (by decide))) h0) fun _ => ?_
  refine fsTri_bind (installClientConf_tri env old) fun _ => ?_
  refine fsPres_into (instFile_pres ?_) h1
  intro fs n h
  rw [put_other _ _ (by decide)]
  exact h

/-- Certain entries are as listed. -/
def Nodes (l : List (Str × Node)) (fs : Fs) : Prop := ∀ p ∈ l, fs p.1 = some p.2

theorem nodes_ignores {l : List (Str × Node)} {path : Str} (h : path ∉ l.map Prod.fst) : Ignores (Nodes l) path := by
  intro fs n hp p hm
  have hne : p.1 ≠ path := fun he => h (he ▸ List.mem_map_of_mem (f := Prod.fst) hm)
  rw [put_other _ _ hne]
  exact hp p hm

theorem nodes_cons {l : List (Str × Node)} {path : Str} {n : Node} {fs : Fs} (h : Nodes l fs ∧ fs path = some n) : Nodes ((path, n) :: l) fs := by
  intro p hp
  rcases List.mem_cons.1 hp with hp | hp
  · subst hp; exact h.2
  · exact h.1 p hp

theorem instDir_nodes {l : List (Str × Node)} {ok : Nat → Bool} {path : Str} {gid : UInt32} {mode : Nat} (h : path ∉ l.map Prod.fst) :
    FsTri (Nodes l) (fun _ => True) (fun _ => Nodes ((path, ⟨.dir, 0, gid, mode⟩) :: l)) (instDir ok path gid mode) :=
  fsTri_weaken (instDir_tri (nodes_ignores h)) (fun _ _ => trivial) fun _ _ h => nodes_cons h

theorem instFile_nodes {l : List (Str × Node)} {ok : Nat → Bool} {c path : Str} {gid : UInt32} {mode : Nat} (h : path ∉ l.map Prod.fst) :
    FsTri (Nodes l) (fun _ => True) (fun _ => Nodes ((path, ⟨.file c, 0, gid, mode⟩) :: l)) (instFile ok c path gid mode) :=
  fsTri_weaken (instFile_tri (nodes_ignores h)) (fun _ _ => trivial) fun _ _ h => nodes_cons h

theorem installServerConf_nodes {l : List (Str × Node)} (env : InstEnv) (h : serverConfFile ∉ l.map Prod.fst) :
    FsTri (Nodes l) (fun _ => True) (fun _ => Nodes l) (installServerConf env) := by
  have hI := nodes_ignores h
  unfold installServerConf
  refine fsTri_bind fsTri_stat fun n => ?_
  cases n with
  | some n =>
    refine fsTri_bind (M := fun _ => Nodes l) ?_ fun _ => ?_
    · exact chown_tri fun fs n hp _ => ⟨trivial, hI _ _ hp.1⟩
    · exact chmod_tri fun fs n hp _ => ⟨trivial, hI _ _ hp⟩
  | none => exact fsTri_mono (fsTri_weaken (instFile_pres hI) (fun _ _ => trivial) fun _ _ h => h) fun _ h => h.1

theorem installClientConf_nodes {l : List (Str × Node)} (env : InstEnv) (h : clientConfFile ∉ l.map Prod.fst) :
    FsTri (Nodes l) (fun _ => True) (fun _ => Nodes l) (installClientConf env) := by
  have hI := nodes_ignores h
  unfold installClientConf
  refine fsTri_bind fsTri_stat fun n => ?_
  cases n with
  | some n =>
    refine fsTri_bind (M := fun _ => Nodes l) ?_ fun _ => ?_
    · exact chown_tri fun fs n hp _ => ⟨trivial, hI _ _ hp.1⟩
    · exact chmod_tri fun fs n hp _ => ⟨trivial, hI _ _ hp⟩
  | none => exact fsTri_mono (fsTri_weaken (instFile_pres hI) (fun _ _ => trivial) fun _ _ h => h) fun _ h => h.1

/-- What the server's installer leaves, apart from the configuration. -/
def serverNodes (env : InstEnv) : List (Str × Node) :=
  [(lmSocketFile, ⟨.file (env.src lmSocketFile), 0, 0, 0o644⟩), (lmServiceFile, ⟨.file (env.src lmServiceFile), 0, 0, 0o644⟩),
   (lmBinFile, ⟨.file (env.src lmBinFile), 0, 0, 0o755⟩), (fwdSocketFile, ⟨.file (env.src fwdSocketFile), 0, 0, 0o644⟩),
   (fwdServiceFile, ⟨.file (env.src fwdServiceFile), 0, 0, 0o644⟩), (fwdBinFile, ⟨.file (env.src fwdBinFile), 0, 0, 0o755⟩),
   (optEtcPath, ⟨.dir, 0, 0, 0o755⟩), (optBinPath, ⟨.dir, 0, 0, 0o755⟩)]

theorem fsOther_true {P : Fs → Prop} {ok : Bool} : FsTri P (fun _ => True) (fun _ => P) (fsOther ok) :=
  fsPres_into fsOther_pres fun _ _ => trivial

theorem installServer_nodes (env : InstEnv) :
    FsTri (Nodes []) (fun _ => True) (fun _ => Nodes (serverNodes env)) (installServer env) := by
  unfold installServer serverNodes
  refine fsTri_bind fsOther_true fun _ => ?_
  refine fsTri_bind (instDir_nodes (by simp)) fun _ => ?_
  refine fsTri_bind (instDir_nodes (by simp only [List.map]; decide)) fun _ => ?_
  refine fsTri_bind (installServerConf_nodes env (by simp only [List.map]; decide)) fun _ => ?_
  refine fsTri_bind (M := fun _ => Nodes ((serverNodes env).drop 3)) ?_ fun _ => ?_
  · unfold installFwd
    refine fsTri_bind (instFile_nodes (by simp only [List.map]; decide)) fun _ => ?_
    refine fsTri_bind (instFile_nodes (by simp only [List.map]; decide)) fun _ => ?_
    refine fsTri_bind (instFile_nodes (by simp only [List.map]; decide)) fun _ => ?_
    exact fsTri_bind fsOther_true fun _ => fsOther_true
  refine fsTri_bind (M := fun _ => Nodes (serverNodes env)) ?_ fun _ => fsOther_true
  · unfold installLmd
    simp only [serverNodes, List.drop]
    refine fsTri_bind (instFile_nodes (by simp only [List.map]; decide)) fun _ => ?_
    refine fsTri_bind (instFile_nodes (by simp only [List.map]; decide)) fun _ => ?_
    refine fsTri_bind (instFile_nodes (by simp only [List.map]; decide)) fun _ => ?_
    exact fsTri_bind fsOther_true fun _ => fsOther_true

/-- What the client's installer leaves, apart from the configuration. -/
def clientNodes (env : InstEnv) : List (Str × Node) :=
  [(clientBinFile, ⟨.file (env.src clientBinFile), 0, 0, 0o755⟩), (optEtcPath, ⟨.dir, 0, 0, 0o755⟩), (optBinPath, ⟨.dir, 0, 0, 0o755⟩)]

theorem installClient_nodes (env : InstEnv) :
    FsTri (Nodes []) (fun _ => True) (fun _ => Nodes (clientNodes env)) (installClient env) := by
  unfold installClient clientNodes
  refine fsTri_bind fsOther_true fun _ => ?_
  refine fsTri_bind (instDir_nodes (by simp)) fun _ => ?_
  refine fsTri_bind (instDir_nodes (by simp only [List.map]; decide)) fun _ => ?_
  refine fsTri_bind (installClientConf_nodes env (by simp only [List.map]; decide)) fun _ => ?_
  exact instFile_nodes (by simp only [List.map]; decide)

theorem rootOnly {fs : Fs} {path : Str} {k : NodeKind} {gid : UInt32} {mode : Nat} (h : fs path = some ⟨k, 0, gid, mode⟩)
    (hg : mode / 8 &&& 2 = 0) (ho : mode &&& 2 = 0) : OnlyRootWrites fs path := by
  refine ⟨_, h, fun uid gids hm => ?_⟩
  rcases hm with hm | ⟨hm, _⟩ | ⟨_, _, hm⟩ | ⟨_, _, hm⟩
  · exact hm
  · exact hm
  · exact absurd hg hm
  · exact absurd ho hm

/-! ## The property -/

/-- **C106** (server; the part of the property that holds). After a complete run of the server's installer, whatever was there
before: the configuration can be read by root and the group letmeind and nobody else, only root can change it, and it is the
one that was there or else the shipped one.

Missing for the full property: the same for the client's configuration. That is false (`C106_negation`, `C106_client_open`). -/
theorem C106_server_partial (env : InstEnv) (fs : Fs) (h : (installServer env fs).res = .ok ()) :
    (∀ uid gids, CanRead (installServer env fs).fs serverConfFile uid gids ↔ uid = 0 ∨ env.gid ∈ gids) ∧
    OnlyRootWrites (installServer env fs).fs serverConfFile ∧
    (∀ n, fs serverConfFile = some n → ∃ n', (installServer env fs).fs serverConfFile = some n' ∧ n'.kind = n.kind) ∧
    (fs serverConfFile = none → HasContent (installServer env fs).fs serverConfFile (env.src serverConfFile)) := by
  obtain ⟨k, hn, hk⟩ := (installServer_conf env _ fs rfl).2 () h
  refine ⟨fun uid gids => ?_, rootOnly hn (by decide) (by decide), fun n ho => ⟨_, hn, by rw [hk, ho]; rfl⟩, fun ho => ⟨_, hn, by rw [hk, ho]; rfl⟩⟩
  constructor
  · rintro ⟨n, h1, h2⟩
    rw [hn] at h1
    cases h1
    rcases h2 with h2 | ⟨h2, _⟩ | ⟨_, h2, _⟩ | ⟨_, _, h2⟩
    · exact .inl h2
    · exact .inl h2
    · exact .inr h2
    · exact absurd (show (0o640 : Nat) &&& 4 = 0 by decide) h2
  · intro hu
    refine ⟨_, hn, ?_⟩
    by_cases h0 : uid = 0
    · exact .inl h0
    · rcases hu with hu | hu
      · exact absurd hu h0
      · exact .inr (.inr (.inl ⟨h0, hu, show (0o640 / 8 : Nat) &&& 4 ≠ 0 by decide⟩))

/-- **C106** (programs). After a complete run of an installer the programs, units and directories are the installed ones and
nobody but root can change them. -/
theorem C106_programs (env : InstEnv) (fs : Fs) :
    ((installServer env fs).res = .ok () →
      (∀ p ∈ [optBinPath, optEtcPath, fwdBinFile, fwdServiceFile, fwdSocketFile, lmBinFile, lmServiceFile, lmSocketFile],
        OnlyRootWrites (installServer env fs).fs p) ∧
      ∀ p ∈ [fwdBinFile, fwdServiceFile, fwdSocketFile, lmBinFile, lmServiceFile, lmSocketFile],
        HasContent (installServer env fs).fs p (env.src p)) ∧
    ((installClient env fs).res = .ok () →
      (∀ p ∈ [optBinPath, optEtcPath, clientBinFile, clientConfFile], OnlyRootWrites (installClient env fs).fs p) ∧
      HasContent (installClient env fs).fs clientBinFile (env.src clientBinFile)) := by
  constructor
  · intro h
    have hn := (installServer_nodes env fs (fun p hp => by cases hp)).2 () h
    simp only [Nodes, serverNodes, List.mem_cons, List.not_mem_nil, or_false, forall_eq_or_imp, forall_eq] at hn
    obtain ⟨a1, a2, a3, a4, a5, a6, a7, a8⟩ := hn
    simp only [List.mem_cons, List.not_mem_nil, or_false, forall_eq_or_imp, forall_eq]
    exact ⟨⟨rootOnly a8 (by decide) (by decide), rootOnly a7 (by decide) (by decide), rootOnly a6 (by decide) (by decide),
      rootOnly a5 (by decide) (by decide), rootOnly a4 (by decide) (by decide), rootOnly a3 (by decide) (by decide),
      rootOnly a2 (by decide) (by decide), rootOnly a1 (by decide) (by decide)⟩,
      ⟨_, a6, rfl⟩, ⟨_, a5, rfl⟩, ⟨_, a4, rfl⟩, ⟨_, a3, rfl⟩, ⟨_, a2, rfl⟩, ⟨_, a1, rfl⟩⟩
  · intro h
    have hn := (installClient_nodes env fs (fun p hp => by cases hp)).2 () h
    obtain ⟨k, hc, -⟩ := (installClient_conf env _ fs rfl).2 () h
    simp only [Nodes, clientNodes, List.mem_cons, List.not_mem_nil, or_false, forall_eq_or_imp, forall_eq] at hn
    obtain ⟨a1, a2, a3⟩ := hn
    simp only [List.mem_cons, List.not_mem_nil, or_false, forall_eq_or_imp, forall_eq]
    exact ⟨⟨rootOnly a3 (by decide) (by decide), rootOnly a2 (by decide) (by decide), rootOnly a1 (by decide) (by decide),
      rootOnly hc (by decide) (by decide)⟩, _, a1, rfl⟩

/-- **C106** (at every moment). If the server's configuration is missing or closed to others before, then between any two system
calls of the installer, whatever fails, it can be read only by root, by the group letmeind, and by who could read it before. -/
theorem C106_server_steps (env : InstEnv) (fs s : Fs) (h0 : ∀ n, fs serverConfFile = some n → ClosedToOthers n)
    (hs : s ∈ (installServer env fs).states) (uid : UInt32) (gids : List UInt32) (hr : CanRead s serverConfFile uid gids) :
    uid = 0 ∨ env.gid ∈ gids ∨ CanRead fs serverConfFile uid gids := by
  have hc := (installServer_conf env _ fs rfl).1 s hs
  obtain ⟨n, hn, hu⟩ := hr
  have key : n.uid = 0 → (n.mode &&& 4 = 0) → (n.gid = env.gid ∨ n.mode / 8 &&& 4 = 0) → uid = 0 ∨ env.gid ∈ gids := by
    intro k1 k2 k3
    rcases hu with hu | ⟨hu, _⟩ | ⟨_, hu, hv⟩ | ⟨_, _, hu⟩
    · exact .inl hu
    · exact .inl (hu.trans k1)
    · rcases k3 with k3 | k3
      · exact .inr (k3 ▸ hu)
      · exact absurd k3 hv
    · exact absurd k2 hu
  cases ho : fs serverConfFile with
  | none =>
    rcases hc.fresh ho with h | ⟨n', h, k1, -, k2⟩
    · rw [h] at hn; cases hn
    · rw [h] at hn
      cases hn
      rcases k2 with k2 | ⟨k2, k3⟩
      · exact (key k1 (by rw [k2]; decide) (.inr (by rw [k2]; decide))).imp_right .inl
      · exact (key k1 (by rw [k3]; decide) (.inl k2)).imp_right .inl
  | some m =>
    obtain ⟨n', h, -, k⟩ := hc.keeps m ho
    rw [h] at hn
    cases hn
    rcases k with k | ⟨k1, k2, k3⟩
    · subst k
      exact .inr (.inr ⟨_, ho, hu⟩)
    · have : n.mode &&& 4 = 0 := by
        rcases k3 with k3 | k3
        · rw [k3]; exact h0 m ho
        · rw [k3]; decide
      exact (key k1 this (.inl k2)).imp_right .inl

/-- **C106** (keys are kept). No installer, whether it comes to its end or fails anywhere, changes the content of an existing
configuration. -/
theorem C106_keys_kept (env : InstEnv) (fs s : Fs) (n : Node) :
    (fs serverConfFile = some n → s ∈ (installServer env fs).states → ∃ n', s serverConfFile = some n' ∧ n'.kind = n.kind) ∧
    (fs clientConfFile = some n → s ∈ (installClient env fs).states → ∃ n', s clientConfFile = some n' ∧ n'.kind = n.kind) := by
  constructor
  · intro h hs
    obtain ⟨n', h1, h2, -⟩ := ((installServer_conf env _ fs rfl).1 s hs).keeps n h
    exact ⟨n', h1, h2⟩
  · intro h hs
    obtain ⟨n', h1, h2, -⟩ := ((installClient_conf env _ fs rfl).1 s hs).keeps n h
    exact ⟨n', h1, h2⟩

/-- **C106** (client). After a complete run of the client's installer every process on the machine can read the client's
configuration, whatever its permissions were. -/
theorem C106_client_open (env : InstEnv) (fs : Fs) (h : (installClient env fs).res = .ok ()) (uid : UInt32) (gids : List UInt32) :
    CanRead (installClient env fs).fs clientConfFile uid gids := by
  obtain ⟨k, hn, -⟩ := (installClient_conf env _ fs rfl).2 () h
  refine ⟨_, hn, ?_⟩
  by_cases h0 : uid = 0
  · exact .inl h0
  · by_cases hg : (0 : UInt32) ∈ gids
    · exact .inr (.inr (.inl ⟨h0, hg, show (0o644 / 8 : Nat) &&& 4 ≠ 0 by decide⟩))
    · exact .inr (.inr (.inr ⟨h0, hg, show (0o644 : Nat) &&& 4 ≠ 0 by decide⟩))

/-- A machine on which the client's keys are readable by root only. -/
def closedClient : Fs := fun p => if p = clientConfFile then some ⟨.file "00000001 = 0102".toList, 0, 0, 0o600⟩ else none

/-- Everything succeeds. -/
def goodInstall : InstEnv := { ok := fun _ => true, gid := 999, src := fun p => p }

/-- **C106** (negation of the full property). A client's configuration that only root could read before can be read by everybody after
the client has been installed once more, with the keys in it. -/
theorem C106_negation : ∃ env fs c, HasContent fs clientConfFile c ∧ (∀ uid gids, CanRead fs clientConfFile uid gids → uid = 0) ∧
    (installClient env fs).res = .ok () ∧ HasContent (installClient env fs).fs clientConfFile c ∧
    ∀ uid gids, CanRead (installClient env fs).fs clientConfFile uid gids := by
  have hok : (installClient goodInstall closedClient).res = .ok () := by decide +kernel
  have hc : closedClient clientConfFile = some ⟨.file "00000001 = 0102".toList, 0, 0, 0o600⟩ := by simp [closedClient]
  refine ⟨goodInstall, closedClient, "00000001 = 0102".toList, ⟨_, hc, rfl⟩, ?_, hok, ?_, C106_client_open _ _ hok⟩
  · rintro uid gids ⟨n, hn, hu⟩
    rw [hc] at hn
    cases hn
    rcases hu with hu | ⟨hu, _⟩ | ⟨_, _, hu⟩ | ⟨_, _, hu⟩
    · exact hu
    · exact hu
    · exact absurd (show (0o600 / 8 : Nat) &&& 4 = 0 by decide) hu
    · exact absurd (show (0o600 : Nat) &&& 4 = 0 by decide) hu
  · obtain ⟨k, hn, hk⟩ := (installClient_conf goodInstall _ closedClient rfl).2 () hok
    exact ⟨_, hn, by rw [hk, hc]; rfl⟩

/-- The server's installer comes to its end on an empty machine. -/
example : (installServer goodInstall fun _ => none).res = .ok () := by decide +kernel
/-- It fails if the units cannot be enabled, with the configuration in place. -/
example : (installServer { goodInstall with ok := fun i => i ≠ 80 } fun _ => none).res = .err ∧
    ((installServer { goodInstall with ok := fun i => i ≠ 80 } fun _ => none).fs serverConfFile).isSome = true := by decide +kernel

end Letmein.Props
