import Verif.Spec.RunDir
import Verif.Lemmas.ConfShow
import Verif.Props.FwAccept

/-!
# Lemmas about code with system calls
-/

namespace Letmein.Props

open Letmein Spec

/-- From states with `P` the code passes through states with `S` only, and `Q` holds if it succeeds. -/
def FsTri {α : Type} (P S : Fs → Prop) (Q : α → Fs → Prop) (p : FsM α) : Prop :=
  ∀ fs, P fs → (∀ s ∈ (p fs).states, S s) ∧ ∀ a, (p fs).res = .ok a → Q a (p fs).fs

theorem fsTri_bind {α β : Type} {P S : Fs → Prop} {M : α → Fs → Prop} {Q : β → Fs → Prop} {p : FsM α} {f : α → FsM β}
    (h1 : FsTri P S M p) (h2 : ∀ a, FsTri (M a) S Q (f a)) : FsTri P S Q (p >>= f) := by
  intro fs hp
  obtain ⟨a1, a2⟩ := h1 fs hp
  show (∀ s ∈ (FsM.bind p f fs).states, S s) ∧ ∀ a, (FsM.bind p f fs).res = .ok a → Q a (FsM.bind p f fs).fs
  unfold FsM.bind
  cases hr : (p fs).res with
  | ok x =>
    simp only [hr]
    obtain ⟨b1, b2⟩ := h2 x (p fs).fs (a2 x hr)
    refine ⟨fun s hs => ?_, b2⟩
    rcases List.mem_append.1 hs with h | h
    · exact a1 s h
    · exact b1 s h
  | err => simp only [hr]; exact ⟨a1, fun a h => by cases h⟩
  | panic => simp only [hr]; exact ⟨a1, fun a h => by cases h⟩

theorem fsTri_pure {α : Type} {P S : Fs → Prop} {Q : α → Fs → Prop} {a : α} (h : ∀ fs, P fs → Q a fs) : FsTri P S Q (pure a : FsM α) := by
  intro fs hp
  show (∀ s ∈ (FsM.pure a fs).states, S s) ∧ ∀ b, (FsM.pure a fs).res = .ok b → Q b (FsM.pure a fs).fs
  simp only [FsM.pure, List.not_mem_nil, false_implies, implies_true, R.ok.injEq, true_and]
  rintro b rfl
  exact h fs hp

theorem fsTri_fail {α : Type} {P S : Fs → Prop} {Q : α → Fs → Prop} : FsTri P S Q (FsM.fail : FsM α) := by
  intro fs _
  simp [FsM.fail]

theorem fsTri_stat {P S : Fs → Prop} {path : Str} : FsTri P S (fun n fs => P fs ∧ fs path = n) (fsStat path) := by
  intro fs hp
  simp only [fsStat, List.not_mem_nil, false_implies, implies_true, R.ok.injEq, true_and]
  rintro b rfl
  exact ⟨hp, rfl⟩

theorem fsTri_call {P S : Fs → Prop} {Q : Unit → Fs → Prop} {ok : Bool} {f : Fs → Option Fs}
    (h : ∀ fs fs', P fs → f fs = some fs' → S fs' ∧ Q () fs') : FsTri P S Q (fsCall ok f) := by
  intro fs hp
  unfold fsCall
  cases ok with
  | false => simp
  | true =>
    simp only [if_true]
    cases hf : f fs with
    | none => simp
    | some fs' =>
      obtain ⟨h1, h2⟩ := h fs fs' hp hf
      simp [h1, h2]

theorem fsTri_mono {α : Type} {P P' S : Fs → Prop} {Q : α → Fs → Prop} {p : FsM α} (h : FsTri P S Q p) (hp : ∀ fs, P' fs → P fs) :
    FsTri P' S Q p := fun fs h' => h fs (hp fs h')

theorem put_self (fs : Fs) (p : Str) (n : Option Node) : fs.put p n p = n := by simp [Fs.put]
theorem put_other (fs : Fs) {p q : Str} (n : Option Node) (h : q ≠ p) : fs.put p n q = fs q := by simp [Fs.put, h]

theorem mkdir_tri {P S : Fs → Prop} {Q : Unit → Fs → Prop} {env : FsEnv} {ok : Bool} {path : Str}
    (h : ∀ fs uid gid mode, P fs → fs path = none →
      S (fs.put path (some ⟨.dir, uid, gid, mode⟩)) ∧ Q () (fs.put path (some ⟨.dir, uid, gid, mode⟩))) :
    FsTri P S Q (mkdirCall env ok path) := by
  refine fsTri_call fun fs fs' hp hf => ?_
  split at hf
  · injection hf with hf; subst hf; exact h _ _ _ _ hp (by assumption)
  · cases hf

theorem chown_tri {P S : Fs → Prop} {Q : Unit → Fs → Prop} {ok : Bool} {path : Str} {uid gid : UInt32}
    (h : ∀ fs n, P fs → fs path = some n → S (fs.put path (some { n with uid, gid })) ∧ Q () (fs.put path (some { n with uid, gid }))) :
    FsTri P S Q (chownCall ok path uid gid) := by
  refine fsTri_call fun fs fs' hp hf => ?_
  cases hn : fs path with
  | none => rw [hn] at hf; cases hf
  | some n => rw [hn] at hf; simp only [Option.map_some, Option.some.injEq] at hf; subst hf; exact h _ _ hp hn

theorem chmod_tri {P S : Fs → Prop} {Q : Unit → Fs → Prop} {ok : Bool} {path : Str} {mode : Nat}
    (h : ∀ fs n, P fs → fs path = some n → S (fs.put path (some { n with mode })) ∧ Q () (fs.put path (some { n with mode }))) :
    FsTri P S Q (chmodCall ok path mode) := by
  refine fsTri_call fun fs fs' hp hf => ?_
  cases hn : fs path with
  | none => rw [hn] at hf; cases hf
  | some n => rw [hn] at hf; simp only [Option.map_some, Option.some.injEq] at hf; subst hf; exact h _ _ hp hn

theorem unlink_tri {P S : Fs → Prop} {Q : Unit → Fs → Prop} {ok : Bool} {path : Str}
    (h : ∀ fs n, P fs → fs path = some n → S (fs.put path none) ∧ Q () (fs.put path none)) : FsTri P S Q (unlinkCall ok path) := by
  refine fsTri_call fun fs fs' hp hf => ?_
  cases hn : fs path with
  | none => rw [hn] at hf; cases hf
  | some n => rw [hn] at hf; simp only [Option.map_some, Option.some.injEq] at hf; subst hf; exact h _ _ hp hn

theorem bind_tri {P S : Fs → Prop} {Q : Unit → Fs → Prop} {env : FsEnv} {ok : Bool} {path : Str}
    (h : ∀ fs uid gid mode, P fs →
      S (fs.put path (some ⟨.sock true, uid, gid, mode⟩)) ∧ Q () (fs.put path (some ⟨.sock true, uid, gid, mode⟩))) :
    FsTri P S Q (bindCall env ok path) := by
  refine fsTri_call fun fs fs' hp hf => ?_
  split at hf
  · injection hf with hf; subst hf; exact h _ _ _ _ hp
  · cases hf

/-- Setting owner and mode: the node is the same before and after, apart from owner and mode. -/
theorem setOwnerMode_tri {P S : Fs → Prop} {Q : Unit → Fs → Prop} {ok1 ok2 : Bool} {path : Str} {uid gid : UInt32} {mode : Nat}
    (h : ∀ fs n, P fs → fs path = some n → S (fs.put path (some { n with uid, gid })) ∧
      S ((fs.put path (some { n with uid, gid })).put path (some ⟨n.kind, uid, gid, mode⟩)) ∧
      Q () ((fs.put path (some { n with uid, gid })).put path (some ⟨n.kind, uid, gid, mode⟩))) :
    FsTri P S Q (setOwnerMode ok1 ok2 path uid gid mode) := by
  unfold setOwnerMode
  refine fsTri_bind fsTri_stat fun n => ?_
  cases n with
  | none => exact fsTri_fail
  | some n =>
    refine fsTri_bind (M := fun _ fs' => ∃ fs, P fs ∧ fs path = some n ∧ fs' = fs.put path (some { n with uid, gid })) ?_ fun _ => ?_
    · refine chown_tri fun fs n' hp hn => ?_
      rw [hn] at hp
      obtain ⟨hp, he⟩ := hp
      injection he with he
      subst he
      exact ⟨(h fs _ hp hn).1, fs, hp, hn, rfl⟩
    · refine chmod_tri fun fs n' hp hn => ?_
      obtain ⟨fs0, hp0, hn0, rfl⟩ := hp
      rw [put_self] at hn
      injection hn with hn
      subst hn
      exact ⟨(h fs0 n hp0 hn0).2.1, (h fs0 n hp0 hn0).2.2⟩

theorem writeAll_pres {P : Fs → Prop} {path : Str} (hP : ∀ fs c u g m, P fs → P (fs.put path (some ⟨.file c, u, g, m⟩))) :
    ∀ (chunks : List Nat) (ok : Nat → Bool) (text : Str), FsTri P P (fun _ fs => P fs) (writeAll ok path chunks text) := by
  have hw : ∀ ok data, FsTri P P (fun _ fs => P fs) (writeCall ok path data) := by
    intro ok data
    refine fsTri_call fun fs fs' hp hf => ?_
    split at hf
    · injection hf with hf; subst hf; exact ⟨hP _ _ _ _ _ hp, hP _ _ _ _ _ hp⟩
    · cases hf
  intro chunks
  induction chunks with
  | nil =>
    intro ok text
    cases text with
    | nil => exact fsTri_pure fun _ h => h
    | cons c t => exact hw _ _
  | cons k chunks ih =>
    intro ok text
    cases text with
    | nil => exact fsTri_pure fun _ h => h
    | cons c t => exact fsTri_bind (hw _ _) fun _ => ih _ _

theorem makePidfile_pres {P : Fs → Prop} {env : FsEnv} {path : Str} {chunks : List Nat} {pid : UInt32}
    (hP : ∀ fs c u g m, P fs → P (fs.put path (some ⟨.file c, u, g, m⟩))) :
    FsTri P P (fun _ fs => P fs) (makePidfile env path chunks pid) := by
  unfold makePidfile
  refine fsTri_bind (M := fun _ => P) ?_ fun _ => writeAll_pres hP _ _ _
  refine fsTri_call fun fs fs' hp hf => ?_
  split at hf
  · injection hf with hf; subst hf; exact ⟨hP _ _ _ _ _ hp, hP _ _ _ _ _ hp⟩
  · split at hf
    · injection hf with hf; subst hf; exact ⟨hP _ _ _ _ _ hp, hP _ _ _ _ _ hp⟩
    · cases hf

/-- What has been written so far is `done`; then the rest is written. -/
theorem writeAll_content {path : Str} :
    ∀ (chunks : List Nat) (ok : Nat → Bool) (text done : Str),
      FsTri (fun fs => fsRead fs path = some done) (fun fs => ∃ t, t <+: text ∧ fsRead fs path = some (done ++ t))
        (fun _ fs => fsRead fs path = some (done ++ text)) (writeAll ok path chunks text) := by
  have hw : ∀ (ok : Bool) (data done : Str), FsTri (fun fs => fsRead fs path = some done) (fun fs => fsRead fs path = some (done ++ data))
      (fun _ fs => fsRead fs path = some (done ++ data)) (writeCall ok path data) := by
    intro ok data done
    refine fsTri_call fun fs fs' hp hf => ?_
    split at hf
    · rename_i c u g m hn
      injection hf with hf
      subst hf
      have hc : c = done := by simpa [fsRead, hn] using hp
      subst hc
      have : fsRead (fs.put path (some ⟨.file (c ++ data), u, g, m⟩)) path = some (c ++ data) := by simp [fsRead, put_self]
      exact ⟨this, this⟩
    · cases hf
  have hw' : ∀ (ok : Bool) (data rest done : Str), FsTri (fun fs => fsRead fs path = some done)
      (fun fs => ∃ t, t <+: data ++ rest ∧ fsRead fs path = some (done ++ t))
      (fun _ fs => fsRead fs path = some (done ++ data)) (writeCall ok path data) := by
    intro ok data rest done fs hp
    obtain ⟨h1, h2⟩ := hw ok data done fs hp
    exact ⟨fun s hs => ⟨data, List.prefix_append _ _, h1 s hs⟩, h2⟩
  intro chunks
  induction chunks with
  | nil =>
    intro ok text done
    cases text with
    | nil => exact fsTri_pure fun _ h => by simpa using h
    | cons c t => rw [writeAll]; simpa using hw' (ok 0) (c :: t) [] done
  | cons k chunks ih =>
    intro ok text done
    cases text with
    | nil => exact fsTri_pure fun _ h => by simpa using h
    | cons c t =>
      rw [writeAll]
      refine fsTri_bind (M := fun _ fs => fsRead fs path = some (done ++ (c :: t.take k))) ?_ fun _ => ?_
      · have := hw' (ok 0) (c :: t.take k) (t.drop k) done
        simpa using this
      · intro fs hp
        obtain ⟨h1, h2⟩ := ih (fun i => ok (i + 1)) (t.drop k) (done ++ (c :: t.take k)) fs hp
        refine ⟨fun s hs => ?_, fun a ha => by simpa using h2 a ha⟩
        obtain ⟨u, hu, hr⟩ := h1 s hs
        refine ⟨(c :: t.take k) ++ u, ?_, by rw [hr]; simp⟩
        obtain ⟨v, hv⟩ := hu
        exact ⟨v, by rw [List.append_assoc, hv]; simp⟩

theorem isDigit_lower10 : ∀ d, d < 10 → IsDigit 10 (digitLower d) d := by
  intro d hd
  rw [← toDigit_iff (by decide)]
  revert d
  decide

theorem showNat_numeral (n : Nat) : Numeral 10 (showNat n) n := numeral_showDigits _ _ (by omega) isDigit_lower10 _ _ (by omega)

theorem showNat_digits {n : Nat} {c : Char} (h : c ∈ showNat n) : ∃ d, d < 10 ∧ c = digitLower d := by
  obtain ⟨d, hd, rfl⟩ := mem_showDigits (digit := digitLower) (b := 10) (by omega) h
  exact ⟨d, hd, rfl⟩

theorem digitLower_not_ws : ∀ d, d < 10 → isWhitespace (digitLower d) = false := by decide

/-- The text of the pid file denotes the pid. -/
theorem pidFileText_parse (pid : UInt32) :
    getLetmeindPid (some (pidFileText pid)) = if pid.toNat ≤ 2147483647 then .ok (pid.toNat : Int) else .err := by
  have htrim : trim (pidFileText pid) = showNat pid.toNat := by
    rw [← trimmed_iff]
    have h1 := trimmed_self (s := showNat pid.toNat) (fun c hc => by
      obtain ⟨d, hd, rfl⟩ := showNat_digits hc
      exact digitLower_not_ws d hd)
    rw [trimmed_iff] at h1 ⊢
    unfold trim at h1 ⊢
    have hne : showNat pid.toNat ≠ [] := showDigits_ne_nil _ _ _ _
    have hs : trimStart (pidFileText pid) = pidFileText pid := by
      apply trimStart_of_head
      intro c hc
      unfold pidFileText at hc
      cases hs : showNat pid.toNat with
      | nil => exact absurd hs hne
      | cons x t =>
        rw [hs] at hc
        simp at hc
        subst hc
        obtain ⟨d, hd, he⟩ := showNat_digits (n := pid.toNat) (c := x) (by rw [hs]; simp)
        rw [he]; exact digitLower_not_ws d hd
    rw [hs]
    unfold pidFileText
    rw [trimEnd_append_blank (b := ['\n']) (by intro c hc; simp at hc; subst hc; decide)]
    have : trimStart (showNat pid.toNat) = showNat pid.toNat := by
      apply trimStart_of_head
      intro c hc
      have : c ∈ showNat pid.toNat := List.mem_of_mem_head? hc
      obtain ⟨d, hd, rfl⟩ := showNat_digits this
      exact digitLower_not_ws d hd
    rw [this] at h1
    exact h1
  unfold getLetmeindPid
  simp only [htrim]
  have hnum : SignedNumber (showNat pid.toNat) (pid.toNat : Int) := .inl ⟨_, .inl (showNat_numeral _), rfl⟩
  split
  · rename_i hle
    exact (parseI32_iff _ _).2 ⟨hnum, by omega, by omega⟩
  · rename_i hgt
    cases hp : parseI32 (showNat pid.toNat) with
    | err => rfl
    | panic =>
      exfalso
      unfold parseI32 at hp
      split at hp
      · cases hq : parseDigits 10 0x80000000 0 _ <;> rw [hq] at hp <;> first | exact absurd hq parseDigits_not_panic | (simp at hp)
      · cases hq : fromStrRadix 10 0x7FFFFFFF (showNat pid.toNat) <;> rw [hq] at hp <;>
          first | exact absurd hq fromStrRadix_not_panic | (simp at hp)
    | ok i =>
      exfalso
      obtain ⟨hs, _, hle⟩ := (parseI32_iff _ _).1 hp
      rcases hs with ⟨n, hn, rfl⟩ | ⟨t, n, ht, _⟩
      · have := numeral_unique (by decide) hn (.inl (showNat_numeral pid.toNat))
        omega
      · obtain ⟨d, hd, he⟩ := showNat_digits (n := pid.toNat) (c := '-') (by rw [ht]; simp)
        revert he; revert hd; revert d; decide

end Letmein.Props
