import Verif.Model.MkDirs

/-!
# C129: the daemons can be started at the same time

letmeind and letmeinfwd create directories below the same run directory, each at its own start, and nothing orders these (`/repo/tests/run-tests.sh:61-77` starts
both without waiting, after having removed the run directory).
-/

namespace Letmein.Spec
open Letmein

/-- Below the root directory, the path and everything on the way to it are directories. -/
def IsDirIn (t : Tree) (p : DirPath) : Prop := ∀ q, q <:+ p → q ≠ [] → t q = some .dir

/-- Nothing but directories is on the way to the path, and on the path. -/
def NoObstacle (t : Tree) (p : DirPath) : Prop := ∀ q, q <:+ p → q ≠ [] → t q ≠ some .other

/-- What has been there is still there. -/
def Grows (t t' : Tree) : Prop := ∀ q e, t q = some e → t' q = some e

/-- Every entry is in a directory. -/
def Rooted (t : Tree) : Prop := ∀ c p, t (c :: p) ≠ none → p = [] ∨ t p = some .dir

/-- Nobody else removes anything or puts something else than a directory onto the ways to the directories needed. -/
def NothingInTheWay (perm : DirPath → Bool) (paths : Nat → DirPath) : DirSys → List DirEv → Prop
  | _, [] => True
  | s, e :: rest => (∀ t, e = .others t → Grows s.tree t ∧ ∀ i, NoObstacle t (paths i)) ∧ NothingInTheWay perm paths (s.step perm e) rest

/-- Nobody else removes anything. -/
def NothingRemoved (perm : DirPath → Bool) : DirSys → List DirEv → Prop
  | _, [] => True
  | s, e :: rest => (∀ t, e = .others t → Grows s.tree t) ∧ NothingRemoved perm (s.step perm e) rest

/-- How many system calls the process has had the time for. -/
def turns (i : Nat) : List DirEv → Nat
  | [] => 0
  | .run j :: rest => (if j = i then 1 else 0) + turns i rest
  | .others _ :: rest => turns i rest

end Letmein.Spec

namespace Letmein.Props
open Letmein Spec

/-! ## Looking up paths -/

theorem walk_dir_iff {t : Tree} {p : DirPath} : t.walk p = .found .dir ↔ IsDirIn t p := by
  induction p with
  | nil => exact ⟨fun _ q hq hne => absurd (List.suffix_nil.1 hq) hne, fun _ => rfl⟩
  | cons c par ih =>
    constructor
    · intro h q hq hne
      simp only [Tree.walk] at h
      cases hw : t.walk par with
      | noent => rw [hw] at h; cases h
      | notdir => rw [hw] at h; cases h
      | found e =>
        rw [hw] at h
        cases e with
        | other => cases h
        | dir =>
          rcases List.suffix_cons_iff.1 hq with rfl | hq
          · cases ht : t (c :: par) with
            | none => rw [ht] at h; cases h
            | some e => rw [ht] at h; injection h with h; rw [h]
          · exact ih.1 hw q hq hne
    · intro h
      have h1 := ih.2 (fun q hq hne => h q (hq.trans (List.suffix_cons c par)) hne)
      simp only [Tree.walk, h1, h (c :: par) (List.suffix_refl _) (by simp)]

theorem walk_clear {t : Tree} {p : DirPath} (h : NoObstacle t p) : t.walk p = .found .dir ∨ t.walk p = .noent := by
  induction p with
  | nil => exact .inl rfl
  | cons c par ih =>
    rcases ih (fun q hq hne => h q (hq.trans (List.suffix_cons c par)) hne) with h1 | h1
    · simp only [Tree.walk, h1]
      cases ht : t (c :: par) with
      | none => exact .inr rfl
      | some e =>
        cases e with
        | dir => exact .inl rfl
        | other => exact absurd ht (h _ (List.suffix_refl _) (by simp))
    · simp only [Tree.walk, h1]
      exact .inr trivial

theorem _root_.Letmein.Spec.Grows.refl (t : Tree) : Grows t t := fun _ _ h => h

theorem _root_.Letmein.Spec.Grows.trans {a b c : Tree} (h1 : Grows a b) (h2 : Grows b c) : Grows a c := fun q e h => h2 q e (h1 q e h)

theorem _root_.Letmein.Spec.Grows.dir {t t' : Tree} (h : Grows t t') {p : DirPath} (hd : IsDirIn t p) : IsDirIn t' p := fun q hq hne => h q _ (hd q hq hne)

theorem stat_dir_iff {t : Tree} {p : DirPath} : t.stat p = some .dir ↔ IsDirIn t p := by
  rw [← walk_dir_iff]
  unfold Tree.stat
  cases t.walk p <;> simp

/-- What `mkdir` can do: nothing, or add a directory where there was nothing, in a directory. -/
theorem mkdir_cases (perm : DirPath → Bool) (t : Tree) (p : DirPath) :
    ((t.mkdir perm p).2 = t ∧ (t.mkdir perm p).1 ≠ .ok) ∨
    ((t.mkdir perm p).1 = .ok ∧ t p = none ∧ p ≠ [] ∧ perm p = true ∧ (∀ q, (t.mkdir perm p).2 q = if q = p then some .dir else t q) ∧
      IsDirIn (t.mkdir perm p).2 p) := by
  cases p with
  | nil => exact .inl ⟨rfl, by simp [Tree.mkdir]⟩
  | cons c par =>
    cases hw : t.walk par with
    | noent => left; simp [Tree.mkdir, hw]
    | notdir => left; simp [Tree.mkdir, hw]
    | found e =>
      cases e with
      | other => left; simp [Tree.mkdir, hw]
      | dir =>
        cases ht : t (c :: par) with
        | some e => left; simp [Tree.mkdir, hw, ht]
        | none =>
          cases hp : perm (c :: par) with
          | false => left; simp [Tree.mkdir, hw, ht, hp]
          | true =>
            right
            have h2 : (t.mkdir perm (c :: par)).2 = fun q => if q = c :: par then some .dir else t q := by simp [Tree.mkdir, hw, ht, hp]
            refine ⟨by simp [Tree.mkdir, hw, ht, hp], rfl, by simp, rfl, fun q => by rw [h2], fun q hq hne => ?_⟩
            rw [h2]
            dsimp only
            split
            · rfl
            · rename_i hqn
              rcases List.suffix_cons_iff.1 hq with rfl | hq
              · exact absurd rfl hqn
              · exact walk_dir_iff.1 hw q hq hne

theorem mkdir_grows (perm : DirPath → Bool) (t : Tree) (p : DirPath) : Grows t (t.mkdir perm p).2 := by
  rcases mkdir_cases perm t p with ⟨h, _⟩ | ⟨_, hn, _, _, h, _⟩
  · rw [h]; exact Grows.refl t
  · intro q e he
    rw [h, if_neg (by rintro rfl; rw [hn] at he; cases he), he]

/-- What `mkdir` does where no obstacle is. -/
theorem mkdir_clear {perm : DirPath → Bool} {t : Tree} {p : DirPath} (hc : NoObstacle t p) (hperm : t p = none → p ≠ [] → perm p = true) :
    (t.mkdir perm p).1 = .ok ∨ ((t.mkdir perm p).1 = .otherErr ∧ (t.mkdir perm p).2 = t ∧ IsDirIn t p) ∨
      ((t.mkdir perm p).1 = .noent ∧ (t.mkdir perm p).2 = t ∧ ∃ c par, p = c :: par ∧ ¬ IsDirIn t par) := by
  cases p with
  | nil => exact .inr (.inl ⟨rfl, rfl, walk_dir_iff.1 rfl⟩)
  | cons c par =>
    rcases walk_clear (fun q hq hne => hc q (hq.trans (List.suffix_cons c par)) hne) with hw | hw
    · cases ht : t (c :: par) with
      | none => left; simp [Tree.mkdir, hw, ht, hperm ht (by simp)]
      | some e =>
        cases e with
        | other => exact absurd ht (hc _ (List.suffix_refl _) (by simp))
        | dir =>
          refine .inr (.inl ⟨by simp [Tree.mkdir, hw, ht], by simp [Tree.mkdir, hw, ht], walk_dir_iff.1 (by simp [Tree.walk, hw, ht])⟩)
    · refine .inr (.inr ⟨by simp [Tree.mkdir, hw], by simp [Tree.mkdir, hw], c, par, rfl, fun h => ?_⟩)
      rw [walk_dir_iff.2 h] at hw
      cases hw

/-! ## Programs that cannot be disturbed -/

/-- Whatever the others do within `I`, the program keeps `I` and ends with `Q`. -/
def Holds (perm : DirPath → Bool) (I : Tree → Prop) (Q : Bool → Tree → Prop) : DirProg → Tree → Prop
  | .ret b, t => ∀ t', Grows t t' → Q b t'
  | .mkdir p k, t => ∀ t', Grows t t' → I t' → I (t'.mkdir perm p).2 ∧ Holds perm I Q (k (t'.mkdir perm p).1) (t'.mkdir perm p).2
  | .stat p k, t => ∀ t', Grows t t' → I t' → Holds perm I Q (k (t'.stat p)) t'

theorem Holds.mono {perm : DirPath → Bool} {I : Tree → Prop} {Q : Bool → Tree → Prop} {prog : DirProg} {t t' : Tree} (hg : Grows t t')
    (h : Holds perm I Q prog t) : Holds perm I Q prog t' := by
  cases prog with
  | ret b => exact fun t2 h2 => h t2 (hg.trans h2)
  | mkdir p k => exact fun t2 h2 => h t2 (hg.trans h2)
  | stat p k => exact fun t2 h2 => h t2 (hg.trans h2)

theorem Holds.step {perm : DirPath → Bool} {I : Tree → Prop} {Q : Bool → Tree → Prop} {prog : DirProg} {t : Tree} (hi : I t)
    (h : Holds perm I Q prog t) : Grows t (prog.step perm t).2 ∧ I (prog.step perm t).2 ∧ Holds perm I Q (prog.step perm t).1 (prog.step perm t).2 := by
  cases prog with
  | ret b => exact ⟨Grows.refl t, hi, h⟩
  | mkdir p k => exact ⟨mkdir_grows perm t p, (h t (Grows.refl t) hi).1, (h t (Grows.refl t) hi).2⟩
  | stat p k => exact ⟨Grows.refl t, hi, h t (Grows.refl t) hi⟩

theorem Holds.alone {perm : DirPath → Bool} {I : Tree → Prop} {Q : Bool → Tree → Prop} {prog : DirProg} {t : Tree} (hi : I t)
    (h : Holds perm I Q prog t) : Q (prog.alone perm t).1 (prog.alone perm t).2 := by
  induction prog generalizing t with
  | ret b => exact h t (Grows.refl t)
  | mkdir p k ih => exact ih _ (h t (Grows.refl t) hi).1 (h t (Grows.refl t) hi).2
  | stat p k ih => exact ih _ hi (h t (Grows.refl t) hi)

/-- All processes together. -/
theorem holds_run {perm : DirPath → Bool} {I : Tree → Prop} {Q : Nat → Bool → Tree → Prop} (evs : List DirEv) (s : DirSys) (hi : I s.tree)
    (h : ∀ i, Holds perm I (Q i) (s.procs i) s.tree) (ho : ∀ a t b, evs = a ++ .others t :: b → Grows (s.run perm a).tree t ∧ I t) :
    Grows s.tree (s.run perm evs).tree ∧ I (s.run perm evs).tree ∧ ∀ i, Holds perm I (Q i) ((s.run perm evs).procs i) (s.run perm evs).tree := by
  induction evs generalizing s with
  | nil => exact ⟨Grows.refl _, hi, h⟩
  | cons e rest ih =>
    have hstep : Grows s.tree (s.step perm e).tree ∧ I (s.step perm e).tree ∧ ∀ i, Holds perm I (Q i) ((s.step perm e).procs i) (s.step perm e).tree := by
      cases e with
      | others t =>
        obtain ⟨h1, h2⟩ := ho [] t rest rfl
        exact ⟨h1, h2, fun i => (h i).mono h1⟩
      | run i =>
        obtain ⟨h1, h2, h3⟩ := (h i).step hi
        refine ⟨h1, h2, fun j => ?_⟩
        simp only [DirSys.step]
        split
        · rename_i hj
          rw [hj]
          exact h3
        · exact (h j).mono h1
    obtain ⟨g1, g2, g3⟩ := ih (s.step perm e) hstep.2.1 hstep.2.2 (fun a t b hab => ho (e :: a) t b (by rw [hab]; rfl))
    exact ⟨hstep.1.trans g1, g2, g3⟩

theorem harmless_others {perm : DirPath → Bool} {paths : Nat → DirPath} {s : DirSys} {evs : List DirEv} (h : NothingInTheWay perm paths s evs) :
    ∀ a t b, evs = a ++ .others t :: b → Grows (s.run perm a).tree t ∧ ∀ i, NoObstacle t (paths i) := by
  intro a
  induction a generalizing s evs with
  | nil => rintro t b rfl; exact h.1 t rfl
  | cons e a ih => rintro t b rfl; exact ih h.2 t b rfl

theorem removed_others {perm : DirPath → Bool} {s : DirSys} {evs : List DirEv} (h : NothingRemoved perm s evs) :
    ∀ a t b, evs = a ++ .others t :: b → Grows (s.run perm a).tree t := by
  intro a
  induction a generalizing s evs with
  | nil => rintro t b rfl; exact h.1 t rfl
  | cons e a ih => rintro t b rfl; exact ih h.2 t b rfl

/-! ## `create_dir_all` -/

/-- The situation of the theorems below: what was there at first still is, and there are no obstacles. -/
def ClearWays (t0 : Tree) (paths : Nat → DirPath) (t : Tree) : Prop := Grows t0 t ∧ ∀ i, NoObstacle t (paths i)

theorem clearWays_mkdir {t0 : Tree} {paths : Nat → DirPath} {perm : DirPath → Bool} {t : Tree} (h : ClearWays t0 paths t) (p : DirPath) :
    ClearWays t0 paths (t.mkdir perm p).2 := by
  refine ⟨h.1.trans (mkdir_grows perm t p), fun i q hq hne => ?_⟩
  rcases mkdir_cases perm t p with ⟨h1, _⟩ | ⟨_, _, _, _, h1, _⟩
  · rw [h1]; exact h.2 i q hq hne
  · rw [h1]
    split
    · simp
    · exact h.2 i q hq hne

theorem holds_isDir {t0 : Tree} {paths : Nat → DirPath} {perm : DirPath → Bool} {Q : Bool → Tree → Prop} {p : DirPath} {k : Bool → DirProg} {t : Tree}
    (hd : IsDirIn t p) (hk : ∀ t', Grows t t' → ClearWays t0 paths t' → Holds perm (ClearWays t0 paths) Q (k true) t') :
    Holds perm (ClearWays t0 paths) Q (checkIsDir p k) t := by
  intro t' hg hi
  rw [stat_dir_iff.2 (hg.dir hd)]
  exact hk t' hg hi

theorem createDirAll_sure {t0 : Tree} {paths : Nat → DirPath} {perm : DirPath → Bool} {Q : Bool → Tree → Prop} {i : Nat}
    (hperm : ∀ q, q <:+ paths i → q ≠ [] → t0 q = none → perm q = true) (p : DirPath) (hp : p <:+ paths i) (k : Bool → DirProg) (t : Tree)
    (hk : ∀ t', Grows t t' → ClearWays t0 paths t' → IsDirIn t' p → Holds perm (ClearWays t0 paths) Q (k true) t') :
    Holds perm (ClearWays t0 paths) Q (createDirAll p k) t := by
  have hclear : ∀ {q t'}, ClearWays t0 paths t' → q <:+ paths i → NoObstacle t' q := fun hi hq r hr hne => hi.2 i r (hr.trans hq) hne
  have hmay : ∀ {q t'}, ClearWays t0 paths t' → q <:+ paths i → t' q = none → q ≠ [] → perm q = true := by
    intro q t' hi hq hn hne
    refine hperm q hq hne ?_
    cases h0 : t0 q with
    | none => rfl
    | some e => rw [hi.1 q e h0] at hn; cases hn
  have hok : ∀ {q : DirPath} {t' : Tree}, (t'.mkdir perm q).1 = .ok → IsDirIn (t'.mkdir perm q).2 q := by
    intro q t' h
    rcases mkdir_cases perm t' q with ⟨_, h1⟩ | ⟨_, _, _, _, _, h1⟩
    · exact absurd h h1
    · exact h1
  induction p generalizing k t with
  | nil =>
    intro t' hg hi
    refine ⟨clearWays_mkdir hi [], ?_⟩
    exact holds_isDir (walk_dir_iff.1 rfl) (fun t2 hg2 hi2 => hk t2 (hg.trans hg2) hi2 (walk_dir_iff.1 rfl))
  | cons c par ih =>
    have hpar : par <:+ paths i := (List.suffix_cons c par).trans hp
    intro t' hg hi
    refine ⟨clearWays_mkdir hi _, ?_⟩
    rcases mkdir_clear (hclear hi hp) (hmay hi hp) with h1 | ⟨h1, h2, h3⟩ | ⟨h1, h2, _⟩
    · rw [h1]
      exact hk _ (hg.trans (mkdir_grows _ _ _)) (clearWays_mkdir hi _) (hok h1)
    · rw [h1, h2]
      exact holds_isDir h3 (fun t2 hg2 hi2 => hk t2 (hg.trans hg2) hi2 (hg2.dir h3))
    · rw [h1, h2]
      refine ih hpar _ _ (fun t2 hg2 hi2 hd2 => ?_)
      intro t3 hg3 hi3
      refine ⟨clearWays_mkdir hi3 _, ?_⟩
      rcases mkdir_clear (hclear hi3 hp) (hmay hi3 hp) with h1 | ⟨h1, h2, h3⟩ | ⟨h1, h2, c', par', he, hn⟩
      · rw [h1]
        exact hk _ (((hg.trans hg2).trans hg3).trans (mkdir_grows _ _ _)) (clearWays_mkdir hi3 _) (hok h1)
      · rw [h1, h2]
        exact holds_isDir h3 (fun t4 hg4 hi4 => hk t4 (((hg.trans hg2).trans hg3).trans hg4) hi4 (hg4.dir h3))
      · injection he with e1 e2
        subst e2
        exact absurd (hg3.dir hd2) hn

theorem makeDir_sure {t0 : Tree} {paths : Nat → DirPath} {perm : DirPath → Bool} {i : Nat}
    (hperm : ∀ q, q <:+ paths i → q ≠ [] → t0 q = none → perm q = true) (t : Tree) :
    Holds perm (ClearWays t0 paths) (fun b t' => b = true ∧ IsDirIn t' (paths i)) (makeDir (paths i)) t := by
  intro t' hg hi
  rcases walk_clear (hi.2 i) with h | h
  · have hs : t'.stat (paths i) = some .dir := by simp [Tree.stat, h]
    rw [hs]
    exact fun t2 hg2 => ⟨rfl, hg2.dir (walk_dir_iff.1 h)⟩
  · have hs : t'.stat (paths i) = none := by simp [Tree.stat, h]
    rw [hs]
    exact createDirAll_sure hperm _ (List.suffix_refl _) _ _ (fun t2 _ _ hd t3 hg3 => ⟨rfl, hg3.dir hd⟩)

/-- Whatever is in the way and whatever else is created: success means that the directory is there. -/
theorem createDirAll_sound {perm : DirPath → Bool} {Q : Bool → Tree → Prop} (p : DirPath) (k : Bool → DirProg) (t : Tree)
    (hk : ∀ b t', Grows t t' → (b = true → IsDirIn t' p) → Holds perm (fun _ => True) Q (k b) t') :
    Holds perm (fun _ => True) Q (createDirAll p k) t := by
  have hcheck : ∀ {q : DirPath} {k : Bool → DirProg} {t : Tree}, (∀ b t', Grows t t' → (b = true → IsDirIn t' q) → Holds perm (fun _ => True) Q (k b) t') →
      Holds perm (fun _ => True) Q (checkIsDir q k) t := by
    intro q k t hk t' hg _
    exact hk _ t' hg (fun h => stat_dir_iff.1 (of_decide_eq_true h))
  have hok : ∀ {q : DirPath} {t' : Tree}, (t'.mkdir perm q).1 = .ok → IsDirIn (t'.mkdir perm q).2 q := by
    intro q t' h
    rcases mkdir_cases perm t' q with ⟨_, h1⟩ | ⟨_, _, _, _, _, h1⟩
    · exact absurd h h1
    · exact h1
  induction p generalizing k t with
  | nil =>
    intro t' hg _
    refine ⟨trivial, ?_⟩
    exact hcheck (fun b t2 hg2 hb => hk b t2 (hg.trans hg2) hb)
  | cons c par ih =>
    intro t' hg _
    refine ⟨trivial, ?_⟩
    have hg1 := hg.trans (mkdir_grows perm t' (c :: par))
    cases h1 : (t'.mkdir perm (c :: par)).1 with
    | ok => exact hk true _ hg1 (fun _ => hok h1)
    | otherErr => exact hcheck (fun b t2 hg2 hb => hk b t2 (hg1.trans hg2) hb)
    | noent =>
      refine ih _ _ (fun b t2 hg2 _ => ?_)
      cases b with
      | false => exact hk false _ (hg1.trans hg2) (fun h => by cases h)
      | true =>
        intro t3 hg3 _
        refine ⟨trivial, ?_⟩
        have hg4 := ((hg1.trans hg2).trans hg3).trans (mkdir_grows perm t3 (c :: par))
        cases h1 : (t3.mkdir perm (c :: par)).1 with
        | ok => exact hk true _ hg4 (fun _ => hok h1)
        | otherErr => exact hcheck (fun b t2 hg2 hb => hk b t2 (hg4.trans hg2) hb)
        | noent => exact hcheck (fun b t2 hg2 hb => hk b t2 (hg4.trans hg2) hb)

theorem makeDir_sound {perm : DirPath → Bool} (p : DirPath) (t : Tree) :
    Holds perm (fun _ => True) (fun b t' => b = true → IsDirIn t' p) (makeDir p) t := by
  intro t' hg _
  cases hs : t'.stat p with
  | none => exact createDirAll_sound _ _ _ (fun b t2 _ hb t3 hg3 h => hg3.dir (hb h))
  | some e =>
    cases e with
    | dir => exact fun t2 hg2 _ => hg2.dir (stat_dir_iff.1 hs)
    | other => exact fun t2 _ h => by cases h

/-- The program ends after so many system calls, whatever their outcome. -/
def EndsWithin : DirProg → Nat → Prop
  | .ret _, _ => True
  | .mkdir _ _, 0 => False
  | .mkdir _ k, n + 1 => ∀ r, EndsWithin (k r) n
  | .stat _ _, 0 => False
  | .stat _ k, n + 1 => ∀ r, EndsWithin (k r) n

theorem EndsWithin.mono {prog : DirProg} {n m : Nat} (h : EndsWithin prog n) (hm : n ≤ m) : EndsWithin prog m := by
  induction prog generalizing n m with
  | ret b => cases m <;> trivial
  | mkdir p k ih =>
    cases n with
    | zero => exact absurd h (by simp [EndsWithin])
    | succ n =>
      obtain ⟨m, rfl⟩ : ∃ m', m = m' + 1 := ⟨m - 1, by omega⟩
      exact fun r => ih r (h r) (by omega)
  | stat p k ih =>
    cases n with
    | zero => exact absurd h (by simp [EndsWithin])
    | succ n =>
      obtain ⟨m, rfl⟩ : ∃ m', m = m' + 1 := ⟨m - 1, by omega⟩
      exact fun r => ih r (h r) (by omega)

theorem createDirAll_ends {n : Nat} (p : DirPath) (k : Bool → DirProg) (hk : ∀ b, EndsWithin (k b) n) :
    EndsWithin (createDirAll p k) (n + (2 + 3 * p.length)) := by
  induction p generalizing k n with
  | nil =>
    intro r
    cases r with
    | ok => exact (hk true).mono (by omega)
    | noent => exact (hk false).mono (by omega)
    | otherErr => exact fun s => hk _
  | cons c par ih =>
    have e : n + (2 + 3 * (c :: par).length) = ((n + 2) + (2 + 3 * par.length)) + 1 := by simp only [List.length_cons]; omega
    rw [e]
    intro r
    cases r with
    | ok => exact (hk true).mono (by omega)
    | otherErr => exact EndsWithin.mono (n := n + 1) (fun s => hk _) (by omega)
    | noent =>
      refine ih _ (fun b => ?_)
      cases b with
      | false => exact (hk false).mono (by omega)
      | true =>
        intro r
        cases r with
        | ok => exact (hk true).mono (by omega)
        | otherErr => exact fun s => hk _
        | noent => exact fun s => hk _

theorem makeDir_ends (p : DirPath) : EndsWithin (makeDir p) (3 * p.length + 3) := by
  intro r
  cases r with
  | none => exact (createDirAll_ends (n := 0) p .ret (fun _ => trivial)).mono (by omega)
  | some e => cases e <;> trivial

theorem run_ends {perm : DirPath → Bool} {i n : Nat} (evs : List DirEv) (s : DirSys) (h : EndsWithin (s.procs i) n) (hn : n ≤ turns i evs) :
    ∃ b, (s.run perm evs).procs i = .ret b := by
  induction evs generalizing s n with
  | nil =>
    obtain rfl : n = 0 := by simpa [turns] using hn
    cases hp : s.procs i with
    | ret b => exact ⟨b, hp⟩
    | mkdir p k => rw [hp] at h; exact absurd h (by simp [EndsWithin])
    | stat p k => rw [hp] at h; exact absurd h (by simp [EndsWithin])
  | cons e rest ih =>
    cases e with
    | others t => exact ih _ h hn
    | run j =>
      simp only [turns] at hn
      by_cases hj : j = i
      · subst hj
        have hst : EndsWithin ((s.step perm (.run j)).procs j) (n - 1) := by
          simp only [DirSys.step, if_true]
          cases hp : s.procs j with
          | ret b => cases n - 1 <;> trivial
          | mkdir p k =>
            rw [hp] at h
            cases n with
            | zero => exact absurd h (by simp [EndsWithin])
            | succ n => exact h _
          | stat p k =>
            rw [hp] at h
            cases n with
            | zero => exact absurd h (by simp [EndsWithin])
            | succ n => exact h _
        simp only [if_true] at hn
        exact ih _ hst (by omega)
      · rw [if_neg hj] at hn
        refine ih _ ?_ (by omega : n ≤ turns i rest)
        simp only [DirSys.step, if_neg (fun h : i = j => hj h.symm)]
        exact h

/-- The program creates directories on the way to `p` only. -/
def CreatesOnly (p0 : DirPath) : DirProg → Prop
  | .ret _ => True
  | .mkdir p k => p <:+ p0 ∧ ∀ r, CreatesOnly p0 (k r)
  | .stat _ k => ∀ r, CreatesOnly p0 (k r)

theorem createDirAll_only {p0 : DirPath} (p : DirPath) (hp : p <:+ p0) (k : Bool → DirProg) (hk : ∀ b, CreatesOnly p0 (k b)) :
    CreatesOnly p0 (createDirAll p k) := by
  induction p generalizing k with
  | nil =>
    refine ⟨hp, fun r => ?_⟩
    cases r with
    | ok => exact hk _
    | noent => exact hk _
    | otherErr => exact fun s => hk _
  | cons c par ih =>
    refine ⟨hp, fun r => ?_⟩
    cases r with
    | ok => exact hk _
    | otherErr => exact fun s => hk _
    | noent =>
      refine ih ((List.suffix_cons c par).trans hp) _ (fun b => ?_)
      cases b with
      | false => exact hk _
      | true =>
        refine ⟨hp, fun r => ?_⟩
        cases r with
        | ok => exact hk _
        | otherErr => exact fun s => hk _
        | noent => exact fun s => hk _

theorem makeDir_only (p : DirPath) : CreatesOnly p (makeDir p) := by
  intro r
  cases r with
  | none => exact createDirAll_only p (List.suffix_refl p) _ (fun _ => trivial)
  | some e => cases e <;> trivial

theorem only_step {perm : DirPath → Bool} {p0 : DirPath} {prog : DirProg} (t : Tree) (h : CreatesOnly p0 prog) : CreatesOnly p0 (prog.step perm t).1 := by
  cases prog with
  | ret b => trivial
  | mkdir p k => exact h.2 _
  | stat p k => exact h _

theorem only_run {perm : DirPath → Bool} {paths : Nat → DirPath} (evs : List DirEv) (s : DirSys) (h : ∀ i, CreatesOnly (paths i) (s.procs i)) (i : Nat) :
    CreatesOnly (paths i) ((s.run perm evs).procs i) := by
  induction evs generalizing s with
  | nil => exact h i
  | cons e rest ih =>
    refine ih _ (fun j => ?_)
    cases e with
    | others t => exact h j
    | run m =>
      simp only [DirSys.step]
      split
      · rename_i hj; subst hj; exact only_step _ (h j)
      · exact h j

theorem only_alone {perm : DirPath → Bool} {p0 : DirPath} {prog : DirProg} (h : CreatesOnly p0 prog) (t : Tree) (q : DirPath) :
    (prog.alone perm t).2 q = t q ∨ (q <:+ p0 ∧ q ≠ []) := by
  induction prog generalizing t with
  | ret b => exact .inl rfl
  | stat p k ih => exact ih _ (h _) t
  | mkdir p k ih =>
    rcases ih _ (h.2 _) (t.mkdir perm p).2 with h1 | h1
    · rcases mkdir_cases perm t p with ⟨h2, _⟩ | ⟨_, _, hne, _, h2, _⟩
      · left; simp only [DirProg.alone]; rw [h1, h2]
      · by_cases hq : q = p
        · right; subst hq; exact ⟨h.1, hne⟩
        · left; simp only [DirProg.alone]; rw [h1, h2, if_neg hq]
    · exact .inr h1

/-! ## The properties -/

/-- **C129**. Any number of processes need directories, each its own, with any parents in common and any of them missing. Nobody removes anything or puts something else than
directories on their ways. Then, however their system calls are interleaved, with each other and with what others do: a process that has had the time for three system calls for
each component of its path, and three more, is through; no process fails; and the directory of a process that is through is there. -/
theorem C129_all_succeed (perm : DirPath → Bool) (t0 : Tree) (paths : Nat → DirPath) (h0 : ∀ i, NoObstacle t0 (paths i))
    (hperm : ∀ i q, q <:+ paths i → q ≠ [] → t0 q = none → perm q = true) (evs : List DirEv) (hev : NothingInTheWay perm paths (.init t0 paths) evs) (i : Nat) :
    (3 * (paths i).length + 3 ≤ turns i evs → ∃ b, ((DirSys.init t0 paths).run perm evs).procs i = .ret b) ∧
    ∀ b, ((DirSys.init t0 paths).run perm evs).procs i = .ret b → b = true ∧ IsDirIn ((DirSys.init t0 paths).run perm evs).tree (paths i) := by
  refine ⟨fun hn => run_ends evs _ (makeDir_ends (paths i)) hn, fun b hb => ?_⟩
  obtain ⟨_, _, h⟩ := holds_run (I := ClearWays t0 paths) (Q := fun i b t' => b = true ∧ IsDirIn t' (paths i)) evs (.init t0 paths) ⟨Grows.refl t0, h0⟩
    (fun j => makeDir_sure (hperm j) t0) (fun a t b hab => by
      have hgr := harmless_others hev a t b hab
      refine ⟨hgr.1, ?_, hgr.2⟩
      -- what was there at first is still there
      refine Grows.trans ?_ hgr.1
      clear hb
      have key : ∀ (a : List DirEv) (s : DirSys) (tl : List DirEv), NothingInTheWay perm paths s (a ++ tl) → Grows s.tree (s.run perm a).tree := by
        intro a
        induction a with
        | nil => intro s _ _; exact Grows.refl _
        | cons e a ih =>
          intro s tl h
          refine Grows.trans ?_ (ih _ tl h.2)
          cases e with
          | others t => exact (h.1 t rfl).1
          | run j =>
            simp only [DirSys.step]
            cases s.procs j with
            | ret b => exact Grows.refl _
            | mkdir p k => exact mkdir_grows _ _ _
            | stat p k => exact Grows.refl _
      rw [hab] at hev
      exact key a _ _ hev)
  have := h i
  rw [hb] at this
  exact this _ (Grows.refl _)

/-- **C129** (no false success). Whatever is in the way, whichever directories may not be created and however many processes work at the same time: as long as nobody
removes anything, a process that reports success has its directory. -/
theorem C129_success_means_there (perm : DirPath → Bool) (t0 : Tree) (paths : Nat → DirPath) (evs : List DirEv)
    (hev : NothingRemoved perm (.init t0 paths) evs) (i : Nat) (h : ((DirSys.init t0 paths).run perm evs).procs i = .ret true) :
    IsDirIn ((DirSys.init t0 paths).run perm evs).tree (paths i) := by
  obtain ⟨_, _, hh⟩ := holds_run (I := fun _ => True) (Q := fun i b t' => b = true → IsDirIn t' (paths i)) evs (.init t0 paths) trivial
    (fun j => makeDir_sound (paths j) t0) (fun a t b hab => ⟨removed_others hev a t b hab, trivial⟩)
  have := hh i
  rw [h] at this
  exact this _ (Grows.refl _) rfl

/-- **C129** (nothing else). A system call of a process changes nothing in the file system, or it puts a directory where nothing was, on the way to the one the process needs. -/
theorem C129_nothing_else (perm : DirPath → Bool) (t0 : Tree) (paths : Nat → DirPath) (evs : List DirEv) (i : Nat) (q : DirPath) :
    let s := (DirSys.init t0 paths).run perm evs
    (s.step perm (.run i)).tree q = s.tree q ∨
      (s.tree q = none ∧ (s.step perm (.run i)).tree q = some .dir ∧ q <:+ paths i ∧ q ≠ [] ∧ perm q = true) := by
  intro s
  have h : CreatesOnly (paths i) (s.procs i) := only_run evs _ (fun j => makeDir_only (paths j)) i
  simp only [DirSys.step]
  cases hp : s.procs i with
  | ret b => exact .inl rfl
  | stat p k => exact .inl rfl
  | mkdir p k =>
    rw [hp] at h
    simp only [DirProg.step]
    rcases mkdir_cases perm s.tree p with ⟨h1, _⟩ | ⟨_, hn, hne, hpm, h1, _⟩
    · left; rw [h1]
    · by_cases hq : q = p
      · subst hq
        right
        exact ⟨hn, by rw [h1, if_pos rfl], h.1, hne, hpm⟩
      · left; rw [h1, if_neg hq]

theorem rooted_obstacle {t : Tree} (hr : Rooted t) {p : DirPath} (h : ¬ NoObstacle t p) : t.walk p = .found .other ∨ t.walk p = .notdir := by
  induction p with
  | nil => exact absurd (fun q hq hne => absurd (List.suffix_nil.1 hq) hne) h
  | cons c par ih =>
    by_cases hp : NoObstacle t par
    · have hc : t (c :: par) = some .other := by
        refine Classical.byContradiction fun hc => h fun q hq hne => ?_
        rcases List.suffix_cons_iff.1 hq with rfl | hq
        · exact hc
        · exact hp q hq hne
      have hd : IsDirIn t par := by
        have : ∀ (c : Str) (par : DirPath), t (c :: par) ≠ none → IsDirIn t par := by
          intro c par
          induction par generalizing c with
          | nil => exact fun _ => walk_dir_iff.1 rfl
          | cons d par ih2 =>
            intro hne q hq hqn
            rcases hr c (d :: par) hne with h1 | h1
            · cases h1
            · rcases List.suffix_cons_iff.1 hq with rfl | hq
              · exact h1
              · exact ih2 d (by rw [h1]; simp) q hq hqn
        exact this c par (by rw [hc]; simp)
      left
      simp [Tree.walk, walk_dir_iff.2 hd, hc]
    · rcases ih hp with h1 | h1
      · right; simp [Tree.walk, h1]
      · right; simp [Tree.walk, h1]

/-- **C129** (on its own). Without interference a process that may create what is missing succeeds exactly if nothing but directories is on the way. Then the directories
on the way are there and everything else is as before; otherwise everything is. -/
theorem C129_alone (t : Tree) (hr : Rooted t) (perm : DirPath → Bool) (p : DirPath) (hperm : ∀ q, q <:+ p → q ≠ [] → t q = none → perm q = true) :
    (((makeDir p).alone perm t).1 = true ↔ NoObstacle t p) ∧
    (NoObstacle t p → ∀ q, ((makeDir p).alone perm t).2 q = if q <:+ p ∧ q ≠ [] then some .dir else t q) ∧
    (¬ NoObstacle t p → ((makeDir p).alone perm t).2 = t) := by
  have hyes : NoObstacle t p → ((makeDir p).alone perm t).1 = true ∧ IsDirIn ((makeDir p).alone perm t).2 p := fun hc =>
    (makeDir_sure (paths := fun _ => p) (i := 0) hperm t).alone (I := ClearWays t (fun _ => p)) ⟨Grows.refl t, fun _ => hc⟩
  have hno : ¬ NoObstacle t p → (makeDir p).alone perm t = (false, t) := by
    intro hc
    rcases rooted_obstacle hr hc with h | h
    · have hs : t.stat p = some .other := by simp [Tree.stat, h]
      simp only [makeDir, DirProg.alone, hs]
    · have hs : t.stat p = none := by simp [Tree.stat, h]
      simp only [makeDir, DirProg.alone, hs]
      cases p with
      | nil => cases h
      | cons c par =>
        have hm : t.mkdir perm (c :: par) = (.otherErr, t) := by
          simp only [Tree.walk] at h
          simp only [Tree.mkdir]
          cases hw : t.walk par with
          | noent => rw [hw] at h; cases h
          | notdir => rfl
          | found e =>
            cases e with
            | other => rfl
            | dir =>
              rw [hw] at h
              dsimp only at h
              cases ht : t (c :: par) <;> rw [ht] at h <;> cases h
        simp only [createDirAll, DirProg.alone, hm, checkIsDir, hs]
        rfl
  refine ⟨⟨fun h => ?_, fun hc => (hyes hc).1⟩, fun hc q => ?_, fun hc => by rw [hno hc]⟩
  · refine Classical.byContradiction fun hc => ?_
    rw [hno hc] at h
    cases h
  · split
    · rename_i hq
      exact (hyes hc).2 q hq.1 hq.2
    · rename_i hq
      rcases only_alone (perm := perm) (makeDir_only p) t q with h | h
      · exact h
      · exact absurd h hq

/-- The run directory of `Model/RunDir`, as a directory below the root directory. -/
def treeOf (run : Str) (fs : Fs) : Tree
  | [r] => if r = run then some .dir else none
  | [f, r] => if r = run then (fs f).map (fun n => if n.kind = .dir then .dir else .other) else none
  | _ => none

/-- **C129** (the simpler model). Where the run directory exists, `createDirIfNotExists` of `Model/RunDir`, by which the start-up of both daemons is modelled, has the same outcome as
the code with its single system calls. -/
theorem C129_simpler_model (env : FsEnv) (fs : Fs) (run path : Str) :
    (createDirIfNotExists env true path fs).res = .ok () ↔ ((makeDir [path, run]).alone (fun _ => true) (treeOf run fs)).1 = true := by
  have hr : Rooted (treeOf run fs) := by
    intro c p hne
    match p, hne with
    | [], _ => exact .inl rfl
    | [r], hne =>
      right
      simp only [treeOf] at hne ⊢
      split
      · rfl
      · rename_i h; rw [if_neg h] at hne; exact absurd rfl hne
    | _ :: _ :: _, hne => simp [treeOf] at hne
  rw [(C129_alone _ hr _ _ (fun _ _ _ _ => rfl)).1]
  have hpath : treeOf run fs [path, run] = (fs path).map (fun n => if n.kind = .dir then Entry.dir else .other) := by simp [treeOf]
  have hobs : NoObstacle (treeOf run fs) [path, run] ↔ treeOf run fs [path, run] ≠ some .other := by
    refine ⟨fun h => h _ (List.suffix_refl _) (by simp), fun h q hq hne => ?_⟩
    rcases List.suffix_cons_iff.1 hq with rfl | hq
    · exact h
    · rcases List.suffix_cons_iff.1 hq with rfl | hq
      · simp [treeOf]
      · exact absurd (List.suffix_nil.1 hq) hne
  rw [hobs, hpath]
  cases hf : fs path with
  | none => simp [createDirIfNotExists, Bind.bind, FsM.bind, fsStat, hf, mkdirCall, fsCall]
  | some n =>
    by_cases hk : n.kind = .dir
    · simp [createDirIfNotExists, Bind.bind, FsM.bind, fsStat, hf, hk, Pure.pure, FsM.pure]
    · simp [createDirIfNotExists, Bind.bind, FsM.bind, fsStat, hf, hk, FsM.fail]

/-! ## A concrete case -/

/-- `/tmp/letmein-test.x` is there, its `run` has been removed (`/repo/tests/run-tests.sh:61`). -/
def mkdirsTree : Tree := fun p => if p = ["letmein-test.x".toList, "tmp".toList] ∨ p = ["tmp".toList] then some .dir else none

/-- letmeind is process 0, all others are letmeinfwd. -/
def mkdirsPaths (i : Nat) : DirPath := (if i = 0 then "letmeind" else "letmeinfwd").toList :: ["run".toList, "letmein-test.x".toList, "tmp".toList]

/-- Both look first. letmeinfwd then tries its directory, letmeind too; letmeinfwd creates `run`; letmeind finds that it exists, and that it is a directory; both create
their own one. -/
def mkdirsEvs : List DirEv := [.run 0, .run 1, .run 1, .run 0, .run 1, .run 0, .run 0, .run 1, .run 0]

theorem mkdirs_harmless : ∀ (evs : List Nat) (s : DirSys), NothingInTheWay (fun _ => true) mkdirsPaths s (evs.map .run) := by
  intro evs
  induction evs with
  | nil => intro s; trivial
  | cons i rest ih => intro s; exact ⟨fun t h => (by cases h), ih _⟩

theorem mkdirs_clear (i : Nat) : NoObstacle mkdirsTree (mkdirsPaths i) := by
  intro q _ _
  unfold mkdirsTree
  split <;> simp

/-- The daemons of the tests: both are through, with both directories in the common run directory, though letmeind's `mkdir` of it failed. -/
example : (∃ b, ((DirSys.init mkdirsTree mkdirsPaths).run (fun _ => true) mkdirsEvs).procs 0 = .ret b ∧ b = true) ∧
    IsDirIn ((DirSys.init mkdirsTree mkdirsPaths).run (fun _ => true) (mkdirsEvs ++ (List.replicate 15 0 ++ List.replicate 15 1).map .run)).tree (mkdirsPaths 0) ∧
    IsDirIn ((DirSys.init mkdirsTree mkdirsPaths).run (fun _ => true) (mkdirsEvs ++ (List.replicate 15 0 ++ List.replicate 15 1).map .run)).tree (mkdirsPaths 1) := by
  have hh : NothingInTheWay (fun _ => true) mkdirsPaths (.init mkdirsTree mkdirsPaths) (mkdirsEvs ++ (List.replicate 15 0 ++ List.replicate 15 1).map .run) :=
    mkdirs_harmless ([0, 1, 1, 0, 1, 0, 0, 1, 0] ++ (List.replicate 15 0 ++ List.replicate 15 1)) _
  have h := C129_all_succeed (fun _ => true) mkdirsTree mkdirsPaths mkdirs_clear (fun _ _ _ _ _ => rfl) _ hh
  have hd : ∀ i, 3 * (mkdirsPaths i).length + 3 = 15 := fun i => rfl
  refine ⟨⟨true, rfl, rfl⟩, ?_, ?_⟩
  · obtain ⟨b, hb⟩ := (h 0).1 (by rw [hd]; decide)
    exact ((h 0).2 b hb).2
  · obtain ⟨b, hb⟩ := (h 1).1 (by rw [hd]; decide)
    exact ((h 1).2 b hb).2

/-- `run` is a file: a start fails, and everything is as before. -/
example : let t : Tree := fun p => if p = ["run".toList] then some .other else none
    Rooted t ∧ ¬ NoObstacle t ["letmeind".toList, "run".toList] ∧ ((makeDir ["letmeind".toList, "run".toList]).alone (fun _ => true) t).1 = false := by
  refine ⟨fun c p h => ?_, fun h => h ["run".toList] ⟨["letmeind".toList], rfl⟩ (by simp) (by simp), by decide⟩
  dsimp only at h
  split at h
  · rename_i he
    injection he with _ he
    exact .inl he
  · exact absurd rfl h

end Letmein.Props
