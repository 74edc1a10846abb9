import Verif.Model.BuildScript
import Verif.Lemmas.Text

/-!
# Property C135: a build whose programs need unexpected libraries fails
-/

namespace Letmein.Spec

open Letmein

/-- The text contains `a`. -/
def ContainsText (a w : Str) : Prop := ∃ x y, w = x ++ a ++ y

/-- The text contains `a`, and `b` after it. -/
def ContainsTwo (a b w : Str) : Prop := ∃ x y z, w = x ++ a ++ y ++ b ++ z

/-- The libraries that the programs may need, by name, as far as the script distinguishes names. -/
def ExpectedLib (w : Str) : Prop :=
  (∃ a ∈ ["linux-vdso.so", "libgcc_s.so", "libm.so", "libc.so", "ld-android.so", "libdl.so"], ContainsText a.toList w) ∨
  ContainsTwo "ld-linux-".toList ".so".toList w ∨ ContainsTwo "libarmmem-".toList ".so".toList w

/-- The line is about the library `w`: its first word. -/
def LineOf (w line : Str) : Prop :=
  (∀ c ∈ w, c ≠ ' ' ∧ c ≠ '\t') ∧ w ≠ [] ∧ ∃ x y, line = x ++ w ++ y ∧ (∀ c ∈ x, c = ' ' ∨ c = '\t') ∧ ∀ c cs, y = c :: cs → c = ' ' ∨ c = '\t'

/-- What `ldd` prints, given the libraries in order: one line for each. -/
def LddPrints (libs : List Str) (text : Str) : Prop :=
  ∃ lines : List Str, text = lines.flatMap (· ++ ['\n']) ∧ lines.length = libs.length ∧ (∀ l ∈ lines, '\n' ∉ l) ∧ ∀ p ∈ libs.zip lines, LineOf p.1 p.2

end Letmein.Spec

namespace Letmein.Props

open Letmein Prog Spec

/-! ### The tools -/

theorem prefix_split {a w : Str} (h : a.isPrefixOf w = true) : w = a ++ w.drop a.length := by
  obtain ⟨t, rfl⟩ := List.isPrefixOf_iff_prefix.1 h
  simp

theorem grepText_iff (a w : Str) : grepText a w = true ↔ ContainsText a w := by
  induction w with
  | nil =>
    unfold grepText
    constructor
    · intro h
      exact ⟨[], [], by simpa using prefix_split h⟩
    · rintro ⟨x, y, h⟩
      have : a = [] := by
        have := congrArg List.length h
        simp at this
        exact List.length_eq_zero_iff.1 (by omega)
      subst this
      rfl
  | cons c cs ih =>
    unfold grepText
    rw [Bool.or_eq_true, ih]
    constructor
    · rintro (h | ⟨x, y, h⟩)
      · exact ⟨[], _, by simpa using prefix_split h⟩
      · exact ⟨c :: x, y, by rw [h]; rfl⟩
    · rintro ⟨x, y, h⟩
      cases x with
      | nil => exact .inl (List.isPrefixOf_iff_prefix.2 ⟨y, h.symm⟩)
      | cons d x =>
        injection h with _ h
        exact .inr ⟨x, y, h⟩

theorem grepTwo_iff (a b w : Str) : grepTwo a b w = true ↔ ContainsTwo a b w := by
  have here : ∀ w : Str, (a.isPrefixOf w && grepText b (w.drop a.length)) = true ↔ ∃ y z, w = a ++ y ++ b ++ z := by
    intro w
    rw [Bool.and_eq_true, grepText_iff]
    constructor
    · rintro ⟨h, y, z, h'⟩
      exact ⟨y, z, by rw [prefix_split h, h']; simp⟩
    · rintro ⟨y, z, rfl⟩
      exact ⟨List.isPrefixOf_iff_prefix.2 ⟨y ++ b ++ z, by simp⟩, y, z, by simp⟩
  induction w with
  | nil =>
    unfold grepTwo
    rw [here]
    constructor
    · rintro ⟨y, z, h⟩
      exact ⟨[], y, z, by simpa using h⟩
    · rintro ⟨x, y, z, h⟩
      have h' := congrArg List.length h
      simp at h'
      exact ⟨y, z, by rw [h, show x = [] from List.length_eq_zero_iff.1 (by omega)]; simp⟩
  | cons c cs ih =>
    unfold grepTwo
    rw [Bool.or_eq_true, here]
    constructor
    · rintro (⟨y, z, h⟩ | h)
      · exact ⟨[], y, z, by simpa using h⟩
      · obtain ⟨x, y, z, h⟩ := ih.1 h
        exact ⟨c :: x, y, z, by rw [h]; rfl⟩
    · rintro ⟨x, y, z, h⟩
      cases x with
      | nil => exact .inl ⟨y, z, by simpa using h⟩
      | cons d x =>
        injection h with _ h
        exact .inr (ih.2 ⟨x, y, z, h⟩)

theorem knownLib_iff (w : Str) : knownLib w = true ↔ ExpectedLib w := by
  unfold knownLib ExpectedLib
  simp only [Bool.or_eq_true, grepText_iff, grepTwo_iff, List.mem_cons, List.not_mem_nil, or_false, exists_eq_or_imp, exists_eq_left]
  constructor
  · rintro (((((((h | h) | h) | h) | h) | h) | h) | h) <;> simp only [h, true_or, or_true]
  · rintro ((h | h | h | h | h | h) | h | h) <;> simp only [h, true_or, or_true]

theorem dropWhile_blank {x : Str} (hx : ∀ c ∈ x, c = ' ' ∨ c = '\t') {w : Str} (hw : ∀ c cs, w = c :: cs → c ≠ ' ' ∧ c ≠ '\t') : (x ++ w).dropWhile shBlank = w := by
  induction x with
  | nil =>
    cases w with
    | nil => rfl
    | cons c cs =>
      have := hw c cs rfl
      simp [List.dropWhile, shBlank, this]
  | cons c x ih =>
    have := hx c (by simp)
    have hb : shBlank c = true := by
      unfold shBlank
      rcases this with rfl | rfl <;> rfl
    simp only [List.cons_append, List.dropWhile, hb]
    exact ih fun d hd => hx d (by simp [hd])

theorem awkFirst_line {w line : Str} (h : LineOf w line) : awkFirst line = w := by
  obtain ⟨hw, hne, x, y, rfl, hx, hy⟩ := h
  unfold awkFirst
  rw [List.append_assoc, dropWhile_blank hx]
  · clear hne
    induction w with
    | nil =>
      cases y with
      | nil => rfl
      | cons c cs =>
        have : shBlank c = true := by
          unfold shBlank
          rcases hy c cs rfl with rfl | rfl <;> rfl
        simp [List.takeWhile, this]
    | cons c w ih =>
      have := hw c (by simp)
      have hb : shBlank c = false := by simp [shBlank, this]
      simp only [List.cons_append, List.takeWhile, hb, Bool.not_false]
      rw [ih fun d hd => hw d (by simp [hd])]
  · intro c cs h
    cases w with
    | nil => exact absurd rfl hne
    | cons d w =>
      injection h with h _
      exact h ▸ hw d (by simp)

theorem flatMap_lines {ls : List Str} (hne : ls ≠ []) : ls.flatMap (· ++ ['\n']) = joinWith '\n' ls ++ ['\n'] := by
  induction ls with
  | nil => exact absurd rfl hne
  | cons l ls ih =>
    cases ls with
    | nil => simp [joinWith]
    | cons m ls =>
      rw [List.flatMap_cons, ih (by simp)]
      simp [joinWith]

theorem lineOf_ne {w l : Str} (h : LineOf w l) : l ≠ [] := by
  obtain ⟨_, hne, x, y, rfl, _⟩ := h
  simp [hne]

/-- `$(ldd …)` loses the last line end. -/
theorem shellOutput_lines {ls : List Str} (hne : ls ≠ []) (hnl : ∀ l ∈ ls, '\n' ∉ l) (hl : ∀ l ∈ ls, l ≠ []) : shellOutput (ls.flatMap (· ++ ['\n'])) = joinWith '\n' ls := by
  rw [flatMap_lines hne]
  unfold shellOutput
  rw [List.reverse_append]
  obtain ⟨init, l, rfl⟩ : ∃ init l, ls = init ++ [l] := ⟨ls.dropLast, ls.getLast hne, (List.dropLast_concat_getLast hne).symm⟩
  have hl' := hl l (by simp)
  obtain ⟨l', c, rfl⟩ : ∃ l' c, l = l' ++ [c] := ⟨l.dropLast, l.getLast hl', (List.dropLast_concat_getLast hl').symm⟩
  have hc : c ≠ '\n' := fun h => hnl (l' ++ [c]) (by simp) (by simp [h])
  have : ∃ t, joinWith '\n' (init ++ [l' ++ [c]]) = t ++ [c] := by
    cases init with
    | nil => exact ⟨l', rfl⟩
    | cons i is =>
      rw [joinWith_append (by simp) (by simp)]
      exact ⟨joinWith '\n' (i :: is) ++ '\n' :: l', by simp [joinWith]⟩
  obtain ⟨t, ht⟩ := this
  rw [ht]
  simp [List.dropWhile, hc]

/-- The check, in terms of libraries. -/
theorem check_libs {libs : List Str} {text : Str} (h : LddPrints libs text) (sub : Bool) :
    (libs = [] ∧ checkDynlibs sub text = (.exits, none)) ∨
    (libs ≠ [] ∧ (∀ w ∈ libs.dropLast, ExpectedLib w) ∧ checkDynlibs sub text = (.status 0, none)) ∨
    (libs ≠ [] ∧ ∃ w ∈ libs.dropLast, ¬ ExpectedLib w ∧ ∃ line, LineOf w line ∧ checkDynlibs sub text = (if sub then .status 1 else .exits, some line)) := by
  obtain ⟨ls, rfl, hlen, hnl, hline⟩ := h
  by_cases hne : libs = []
  · subst hne
    have : ls = [] := List.length_eq_zero_iff.1 hlen
    subst this
    exact .inl ⟨rfl, rfl⟩
  · have hls : ls ≠ [] := fun h => hne (List.length_eq_zero_iff.1 (by rw [← hlen, h]; rfl))
    have hget : ∀ i (h1 : i < ls.length) (h2 : i < libs.length), LineOf libs[i] ls[i] := by
      intro i h1 h2
      refine hline (libs[i], ls[i]) ?_
      rw [List.mem_iff_getElem]
      exact ⟨i, by simp; omega, by simp⟩
    have hmem : ∀ l ∈ ls, l ≠ [] := by
      intro l hl
      obtain ⟨i, hi, rfl⟩ := List.mem_iff_getElem.1 hl
      exact lineOf_ne (hget i hi (by omega))
    have hout := shellOutput_lines hls hnl hmem
    have hone : joinWith '\n' ls ≠ [] := by
      cases ls with
      | nil => exact absurd rfl hls
      | cons l ls =>
        have := hmem l (by simp)
        cases ls with
        | nil => exact this
        | cons m ls => simp [joinWith]
    have hread : readLines (joinWith '\n' ls) = ls.dropLast := by
      unfold readLines
      rw [splitOn_joinWith hls hnl]
    unfold checkDynlibs
    simp only [hout, if_neg hone, hread]
    cases hf : ls.dropLast.find? fun line => !knownLib (awkFirst line) with
    | none =>
      refine .inr (.inl ⟨hne, fun w hw => ?_, rfl⟩)
      obtain ⟨i, hi, rfl⟩ := List.mem_iff_getElem.1 hw
      rw [List.length_dropLast] at hi
      have hi' : i < ls.dropLast.length := by rw [List.length_dropLast]; omega
      have := List.find?_eq_none.1 hf _ (List.getElem_mem hi')
      simp only [List.getElem_dropLast, Bool.not_eq_true', Bool.not_eq_false] at this ⊢
      rw [awkFirst_line (hget i (by omega) (by omega)), knownLib_iff] at this
      exact this
    | some line =>
      have h1 := List.find?_some hf
      have h2 := List.mem_of_find?_eq_some hf
      obtain ⟨i, hi, rfl⟩ := List.mem_iff_getElem.1 h2
      rw [List.length_dropLast] at hi
      simp only [List.getElem_dropLast] at h1 ⊢
      have hl := hget i (by omega) (by omega)
      have hi' : i < libs.dropLast.length := by rw [List.length_dropLast]; omega
      refine .inr (.inr ⟨hne, libs[i], ?_, ?_, ls[i], hl, rfl⟩)
      · have := List.getElem_mem hi'
        rwa [List.getElem_dropLast] at this
      · rw [awkFirst_line hl] at h1
        rw [← knownLib_iff]
        simpa using h1

/-! ### The property -/

/-- C135 as stated: if the script ends successfully, the programs need expected libraries only. -/
def C135_statement : Prop :=
  ∀ (env : BuildEnv) (libs : Built → List Str) (_ : ∀ p, LddPrints (libs p) (env.ldd p)), (buildScript env).1 = 0 → ∀ p, ∀ w ∈ libs p, ExpectedLib w

/-- **C135** (the last line). Whatever library the last line printed by `ldd` names, for any of the programs: the script does the same. -/
theorem C135_last_line_unchecked (env env' : BuildEnv) (he : env'.succeeds = env.succeeds ∧ env'.auditable = env.auditable ∧ env'.lastInSubshell = env.lastInSubshell)
    (libs : Built → List Str) (last last' : Built → Str) (text : Built → List Str) (hlen : ∀ p, (text p).length = (libs p).length)
    (hlines : ∀ p, (∀ l ∈ text p, '\n' ∉ l) ∧ ∀ x ∈ (libs p).zip (text p), LineOf x.1 x.2)
    (line line' : Built → Str) (hl : ∀ p, LineOf (last p) (line p) ∧ '\n' ∉ line p) (hl' : ∀ p, LineOf (last' p) (line' p) ∧ '\n' ∉ line' p)
    (h : ∀ p, env.ldd p = (text p ++ [line p]).flatMap (· ++ ['\n'])) (h' : ∀ p, env'.ldd p = (text p ++ [line' p]).flatMap (· ++ ['\n'])) : buildScript env' = buildScript env := by
  have key : ∀ p sub, checkDynlibs sub (env'.ldd p) = checkDynlibs sub (env.ldd p) := by
    intro p sub
    have hmem : ∀ l ∈ text p, l ≠ [] := by
      intro l hl
      obtain ⟨i, hi, rfl⟩ := List.mem_iff_getElem.1 hl
      have := hlen p
      refine lineOf_ne ((hlines p).2 ((libs p)[i], (text p)[i]) ?_)
      rw [List.mem_iff_getElem]
      exact ⟨i, by simp; omega, by simp⟩
    have gen : ∀ (w l : Str), LineOf w l ∧ '\n' ∉ l → shellOutput ((text p ++ [l]).flatMap (· ++ ['\n'])) ≠ [] ∧ readLines (shellOutput ((text p ++ [l]).flatMap (· ++ ['\n']))) = text p := by
      intro w l hl
      have a1 : ∀ x ∈ text p ++ [l], '\n' ∉ x := by
        intro x hx
        rcases List.mem_append.1 hx with hx | hx
        · exact (hlines p).1 x hx
        · rw [List.mem_singleton.1 hx]; exact hl.2
      rw [shellOutput_lines (by simp) a1 (by
        intro x hx
        rcases List.mem_append.1 hx with hx | hx
        · exact hmem x hx
        · rw [List.mem_singleton.1 hx]; exact lineOf_ne hl.1)]
      refine ⟨?_, by unfold readLines; rw [splitOn_joinWith (by simp) a1]; simp⟩
      cases ht : text p with
      | nil => exact lineOf_ne hl.1
      | cons t ts => cases ts <;> simp [joinWith]
    have g1 := gen _ _ (hl p)
    have g2 := gen _ _ (hl' p)
    unfold checkDynlibs
    simp only [h p, h' p, if_neg g1.1, if_neg g2.1, g1.2, g2.2]
  unfold buildScript buildCommands
  simp only [buildChecks, key, he.1, he.2.1, he.2.2]

/-- **C135** (the first two programs). In a shell that runs the loop in a subshell, what `letmein` and `letmeind` need has no influence on the exit status. -/
theorem C135_only_last_program (env : BuildEnv) (hs : env.lastInSubshell = true) (libs : Built → List Str) (hl : ∀ p, LddPrints (libs p) (env.ldd p)) (hne : ∀ p, libs p ≠ [])
    (hc : buildCommands env = true) : (buildScript env).1 = 0 ↔ ∀ w ∈ (libs .letmeinfwd).dropLast, ExpectedLib w := by
  have go : ∀ p, ∃ n, (checkDynlibs true (env.ldd p)).1 = .status n ∧ (n = 0 ↔ ∀ w ∈ (libs p).dropLast, ExpectedLib w) := by
    intro p
    rcases check_libs (hl p) true with ⟨h, _⟩ | ⟨_, h, h'⟩ | ⟨_, w, hw, hx, line, _, h'⟩
    · exact absurd h (hne p)
    · exact ⟨0, by rw [h'], by simpa using h⟩
    · exact ⟨1, by rw [h']; rfl, by simp only [Nat.one_ne_zero, false_iff]; exact fun h => hx (h w hw)⟩
  obtain ⟨n1, h1, _⟩ := go .letmein
  obtain ⟨n2, h2, _⟩ := go .letmeind
  obtain ⟨n3, h3, h4⟩ := go .letmeinfwd
  unfold buildScript
  rw [if_pos hc]
  simp only [buildChecks, hs, h1, h2, h3]
  exact h4

/-- An `ldd` line as it is printed for a library. -/
def lddLine (w : Str) : Str := '\t' :: w ++ " => /lib/x (0x00007f0000000000)".toList

theorem lddLine_of {w : Str} (hne : w ≠ []) (hw : ∀ c ∈ w, c ≠ ' ' ∧ c ≠ '\t') : LineOf w (lddLine w) := by
  refine ⟨hw, hne, ['\t'], " => /lib/x (0x00007f0000000000)".toList, rfl, by simp, fun c cs h => ?_⟩
  rw [show " => /lib/x (0x00007f0000000000)".toList = ' ' :: "=> /lib/x (0x00007f0000000000)".toList from rfl] at h
  injection h with h _
  exact .inl h.symm

/-- `ldd` prints a library that is not in the list. -/
def strangeLib : Str := "libevil.so.1".toList

theorem strange_unexpected : ¬ ExpectedLib strangeLib := by
  rw [← knownLib_iff]
  decide +kernel

/-- An environment in which everything succeeds, and the libraries of the programs. -/
def buildEnv (sub : Bool) (libs : Built → List Str) : BuildEnv :=
  { succeeds := fun _ => true, auditable := true, ldd := fun p => ((libs p).map lddLine).flatMap (· ++ ['\n']), lastInSubshell := sub }

theorem buildEnv_prints (sub : Bool) (libs : Built → List Str) (h : ∀ p, ∀ w ∈ libs p, w ≠ [] ∧ ∀ c ∈ w, c ≠ ' ' ∧ c ≠ '\t' ∧ c ≠ '\n') (p : Built) :
    LddPrints (libs p) ((buildEnv sub libs).ldd p) := by
  refine ⟨(libs p).map lddLine, rfl, by simp, ?_, ?_⟩
  · intro l hl
    obtain ⟨w, hw, rfl⟩ := List.mem_map.1 hl
    intro hn
    unfold lddLine at hn
    rcases List.mem_append.1 hn with hn | hn
    · rcases List.mem_cons.1 hn with hn | hn
      · cases hn
      · exact (((h p w hw).2 _ hn).2.2) rfl
    · revert hn
      decide +kernel
  · intro x hx
    obtain ⟨i, hi, rfl⟩ := List.mem_iff_getElem.1 hx
    simp only [List.length_zip, List.length_map] at hi
    simp only [List.getElem_zip, List.getElem_map]
    have := h p _ (List.getElem_mem (show i < (libs p).length by omega))
    exact lddLine_of this.1 fun c hc => ⟨(this.2 c hc).1, (this.2 c hc).2.1⟩

/-- **C135**, negation, in every shell: `letmeinfwd` needs an unexpected library that `ldd` prints last. -/
theorem C135_negation : ¬ C135_statement := by
  intro h
  exact strange_unexpected (h (buildEnv false fun _ => ["libc.so.6".toList, strangeLib]) (fun _ => ["libc.so.6".toList, strangeLib])
    (buildEnv_prints _ _ (fun _ => by decide +kernel)) (by decide +kernel) .letmein strangeLib (by simp))

/-- `C135_last_line_unchecked` with `libm.so.6` and a library that is not in the list. -/
example : buildScript (buildEnv true fun _ => ["libc.so.6".toList, strangeLib]) = buildScript (buildEnv true fun _ => ["libc.so.6".toList, "libm.so.6".toList]) :=
  C135_last_line_unchecked _ _ ⟨rfl, rfl, rfl⟩ (fun _ => ["libc.so.6".toList]) (fun _ => "libm.so.6".toList) (fun _ => strangeLib) (fun _ => [lddLine "libc.so.6".toList]) (fun _ => rfl)
    (fun _ => ⟨by decide +kernel, fun x hx => (by rw [List.mem_singleton.1 hx]; exact lddLine_of (by decide) (by decide +kernel))⟩)
    (fun _ => lddLine "libm.so.6".toList) (fun _ => lddLine strangeLib) (fun _ => ⟨lddLine_of (by decide) (by decide +kernel), by decide +kernel⟩)
    (fun _ => ⟨lddLine_of (by decide) (by decide +kernel), by decide +kernel⟩) (fun _ => rfl) (fun _ => rfl)

/-- A build that ends successfully with `letmein` needing an unexpected library in the midst of the others; the script complains about it, nevertheless. -/
example : (buildScript (buildEnv true fun p => if p = .letmein then ["linux-vdso.so.1".toList, strangeLib, "libc.so.6".toList] else ["linux-vdso.so.1".toList, "libc.so.6".toList])) =
    (0, [(.letmein, lddLine strangeLib)]) := by decide +kernel

/-- The three libraries of an honest build are accepted, and `C135_only_last_program` applies to it. -/
example : (buildScript (buildEnv true fun _ => ["linux-vdso.so.1".toList, "libgcc_s.so.1".toList, "/lib64/ld-linux-x86-64.so.2".toList])) = (0, []) := by decide +kernel

example : (buildScript (buildEnv true fun p => if p = .letmeinfwd then [strangeLib, "libc.so.6".toList] else ["libc.so.6".toList])).1 ≠ 0 := by
  rw [Ne, C135_only_last_program _ rfl (fun p => if p = .letmeinfwd then [strangeLib, "libc.so.6".toList] else ["libc.so.6".toList])
    (buildEnv_prints _ _ (by rintro (_ | _ | _) <;> decide +kernel)) (by rintro (_ | _ | _) <;> simp) rfl]
  exact fun h => strange_unexpected (h _ (by simp))

/-- **C135** (partial). If the script ends successfully: the commands that it ran before the checks have succeeded, `ldd` has printed something for each program, all libraries of `letmeinfwd` but the one printed last are
expected. And, however it ends, an unexpected library is complained about for each program that was checked and needs one that is not printed last; in a shell that does not run the loop in a
subshell there is none at a successful end. Missing: the library printed last (`C135_last_line_unchecked`), and the exit status for `letmein` and `letmeind` in other shells
(`C135_only_last_program`). -/
theorem C135_build_checked_partial (env : BuildEnv) (libs : Built → List Str) (hl : ∀ p, LddPrints (libs p) (env.ldd p)) (h : (buildScript env).1 = 0) :
    (env.succeeds .tomlThere ∧ env.succeeds .cd ∧ env.succeeds .build ∧ env.succeeds .test ∧
      (env.auditable → env.succeeds .auditableBuild ∧ env.succeeds .auditBin) ∧ (¬ env.auditable → env.succeeds .releaseBuild)) ∧
    (∀ p, libs p ≠ []) ∧ (∀ w ∈ (libs .letmeinfwd).dropLast, ExpectedLib w) ∧
    (env.lastInSubshell = false → ∀ p, ∀ w ∈ (libs p).dropLast, ExpectedLib w) ∧
    ∀ p, ∀ w ∈ (libs p).dropLast, ¬ ExpectedLib w → ∃ w' line, ¬ ExpectedLib w' ∧ LineOf w' line ∧ (p, line) ∈ (buildScript env).2 := by
  unfold buildScript at h ⊢
  by_cases hc : buildCommands env = true
  case neg => rw [if_neg hc] at h; cases h
  rw [if_pos hc] at h ⊢
  have go : ∀ p, (checkDynlibs env.lastInSubshell (env.ldd p)).1 = .exits ∨
      (libs p ≠ [] ∧ ∃ n, (checkDynlibs env.lastInSubshell (env.ldd p)).1 = .status n ∧ (n = 0 → ∀ w ∈ (libs p).dropLast, ExpectedLib w) ∧
        (env.lastInSubshell = false → ∀ w ∈ (libs p).dropLast, ExpectedLib w) ∧
        ∀ w ∈ (libs p).dropLast, ¬ ExpectedLib w → ∃ w' line, ¬ ExpectedLib w' ∧ LineOf w' line ∧ (checkDynlibs env.lastInSubshell (env.ldd p)).2 = some line) := by
    intro p
    rcases check_libs (hl p) env.lastInSubshell with ⟨_, h'⟩ | ⟨hne, h1, h'⟩ | ⟨hne, w, hw, hx, line, hline, h'⟩
    · exact .inl (by rw [h'])
    · exact .inr ⟨hne, 0, by rw [h'], fun _ => h1, fun _ => h1, fun w hw hx => absurd (h1 w hw) hx⟩
    · cases hsub : env.lastInSubshell with
      | false => rw [hsub] at h'; exact .inl (by rw [h']; rfl)
      | true =>
        rw [hsub] at h'
        exact .inr ⟨hne, 1, by rw [h']; rfl, nofun, nofun, fun _ _ _ => ⟨w, line, hx, hline, by rw [h']⟩⟩
  simp only [buildChecks] at h ⊢
  rcases go .letmein with g | ⟨e1, n1, g1, a1, b1, c1⟩
  · rw [g] at h; cases h
  rcases go .letmeind with g | ⟨e2, n2, g2, a2, b2, c2⟩
  · rw [g1] at h; simp only [g] at h; cases h
  rcases go .letmeinfwd with g | ⟨e3, n3, g3, a3, b3, c3⟩
  · rw [g1] at h; simp only [g2, g] at h; cases h
  simp only [g1, g2, g3] at h ⊢
  refine ⟨?_, ?_, a3 h, ?_, ?_⟩
  · unfold buildCommands at hc
    cases ha : env.auditable <;> simp [ha] at hc ⊢ <;> grind
  · rintro (_ | _ | _) <;> assumption
  · rintro hs (_ | _ | _)
    · exact b1 hs
    · exact b2 hs
    · exact b3 hs
  · rintro (_ | _ | _) w hw hx
    · obtain ⟨w', line, x1, x2, x3⟩ := c1 w hw hx
      exact ⟨w', line, x1, x2, by simp [x3]⟩
    · obtain ⟨w', line, x1, x2, x3⟩ := c2 w hw hx
      exact ⟨w', line, x1, x2, by simp [x3]⟩
    · obtain ⟨w', line, x1, x2, x3⟩ := c3 w hw hx
      exact ⟨w', line, x1, x2, by simp [x3]⟩

end Letmein.Props
