import Verif.Spec.Conf
import Verif.Model.Conf
import Verif.Lemmas.StdText
import Verif.Lemmas.Assoc
import Verif.Lemmas.Wire

/-!
# Lemmas: lines, words, numbers and items of configuration values
-/

namespace Letmein

open Spec

/-! ### White space -/

theorem trimStart_blank_append {a : Str} (ha : Blank a) (s : Str) : trimStart (a ++ s) = trimStart s := by
  unfold trimStart
  exact List.dropWhile_append_of_pos ha

theorem trimStart_of_head {s : Str} (h : ∀ c, s.head? = some c → isWhitespace c = false) : trimStart s = s := by
  cases s with
  | nil => rfl
  | cons c s => simp [trimStart, List.dropWhile_cons, h c rfl]

theorem trimStart_blank {s : Str} (h : Blank s) : trimStart s = [] := by
  have := trimStart_blank_append h []
  simpa [trimStart] using this

theorem trimEnd_append_blank {b : Str} (hb : Blank b) (s : Str) : trimEnd (s ++ b) = trimEnd s := by
  unfold trimEnd
  rw [List.reverse_append, List.dropWhile_append_of_pos]
  intro c hc
  exact hb c (by simpa using hc)

theorem trimEnd_of_last {s : Str} (h : ∀ c, s.getLast? = some c → isWhitespace c = false) : trimEnd s = s := by
  unfold trimEnd
  have := trimStart_of_head (s := s.reverse) (by intro c hc; rw [List.head?_reverse] at hc; exact h c hc)
  unfold trimStart at this
  rw [this, List.reverse_reverse]

theorem trimEnd_blank {s : Str} (h : Blank s) : trimEnd s = [] := by
  have := trimEnd_append_blank h []
  simpa [trimEnd] using this

theorem trimStart_empty_iff {s : Str} : trimStart s = [] ↔ Blank s := by
  refine ⟨fun h => ?_, trimStart_blank⟩
  obtain ⟨a, h1, h2, -⟩ := trimStart_spec s
  rw [h, List.append_nil] at h1
  rw [h1]; exact h2

theorem trimmed_iff {s t : Str} : Trimmed s t ↔ trim s = t := by
  constructor
  · rintro ⟨⟨a, b, rfl, ha, hb⟩, h1, h2⟩
    unfold trim
    rw [List.append_assoc, trimStart_blank_append ha]
    cases t with
    | nil =>
      rw [List.nil_append, trimStart_blank hb]; rfl
    | cons c t =>
      rw [trimStart_of_head (by intro c' hc'; exact h1 c' (by simpa using hc')), trimEnd_append_blank hb, trimEnd_of_last h2]
  · rintro rfl; exact trim_spec s

theorem exists_trimmed {s : Str} {P : Str → Prop} : (∃ t, Trimmed s t ∧ P t) ↔ P (trim s) := by
  constructor
  · rintro ⟨t, h, hp⟩; rw [trimmed_iff] at h; rwa [h]
  · intro h; exact ⟨_, trim_spec s, h⟩

theorem trim_trim (s : Str) : trim (trim s) = trim s := by
  have h := trim_spec s
  exact trimmed_iff.1 ⟨⟨[], [], by simp, by simp, by simp⟩, h.first, h.last⟩

/-! ### Lines -/

theorem linesFrom_append {l : Str} (hl : '\n' ∉ l) (cur s : Str) : linesFrom cur (l ++ s) = linesFrom (cur ++ l) s := by
  induction l generalizing cur with
  | nil => simp
  | cons c l ih =>
    simp only [List.mem_cons, not_or] at hl
    rw [List.cons_append, linesFrom, if_neg (fun e => hl.1 e.symm), ih hl.2]
    simp

theorem textLines_lines {s : Str} {ls : List Str} (h : TextLines s ls) : lines s = ls := by
  unfold lines
  induction h with
  | nil => rfl
  | @last l hne hl =>
    have := linesFrom_append hl [] []
    rw [List.append_nil] at this
    rw [this, List.nil_append, linesFrom]
    cases l with
    | nil => exact absurd rfl hne
    | cons => rfl
  | @lf l s ls hl hcr _ ih =>
    rw [linesFrom_append hl, linesFrom, if_pos rfl, ih, List.nil_append, stripCr, if_neg hcr]
  | @crlf l s ls hl _ ih =>
    rw [linesFrom_append hl, linesFrom, if_neg (by decide), linesFrom, if_pos rfl, ih, List.nil_append, stripCr]
    simp

theorem linesFrom_textLines (cur s : Str) (hc : '\n' ∉ cur) : TextLines (cur ++ s) (linesFrom cur s) := by
  induction s generalizing cur with
  | nil =>
    rw [List.append_nil, linesFrom]
    cases cur with
    | nil => exact .nil
    | cons c cur => exact .last (by simp) hc
  | cons c s ih =>
    rw [linesFrom]
    by_cases h : c = '\n'
    · rw [if_pos h, h]
      have ih' := ih [] (by simp)
      rw [List.nil_append] at ih'
      by_cases hcr : cur.getLast? = some '\r'
      · obtain ⟨l, rfl⟩ := List.getLast?_eq_some_iff.1 hcr
        rw [stripCr, if_pos hcr]
        have := TextLines.crlf (l := l) (by intro hm; exact hc (by simp [hm])) ih'
        simpa using this
      · rw [stripCr, if_neg hcr]
        exact .lf hc hcr ih'
    · rw [if_neg h]
      have := ih (cur ++ [c]) (by simp [hc]; exact fun e => h e.symm)
      simpa using this

/-- The lines of a text are those of the specification. -/
theorem textLines_iff {s : Str} {ls : List Str} : TextLines s ls ↔ lines s = ls := by
  refine ⟨textLines_lines, ?_⟩
  rintro rfl
  exact linesFrom_textLines [] s (by simp)

/-! ### Words -/

theorem lowerChar_variant (c : Char) : CaseVariant c (lowerChar c) := by
  unfold lowerChar
  by_cases h : 65 ≤ c.toNat ∧ c.toNat ≤ 90
  · rw [if_pos h]
    refine .inr (.inl ⟨c.toNat - 65, ?_⟩)
    have hc := char_eq_ofNat c
    generalize c.toNat = n at *
    have : ∀ i, i < 26 → "abcdefghijklmnopqrstuvwxyz".toList[i]? = some (Char.ofNat (i + 97)) ∧
      "ABCDEFGHIJKLMNOPQRSTUVWXYZ".toList[i]? = some (Char.ofNat (i + 65)) := by decide +kernel
    obtain ⟨h1, h2⟩ := this (n - 65) (by omega)
    rw [h1, h2, hc]
    exact ⟨by congr 2; omega, by congr 2; omega⟩
  · rw [if_neg h]
    by_cases hk : c.toNat = 0x212A
    · rw [if_pos hk]
      refine .inr (.inr ⟨rfl, ?_⟩)
      rw [char_eq_ofNat c, hk]
    · rw [if_neg hk]; exact .inl rfl

/-- A character that is its own lower case. -/
def LowerFixed (w : Char) : Prop := ¬ (65 ≤ w.toNat ∧ w.toNat ≤ 90) ∧ w.toNat ≠ 0x212A

instance (w : Char) : Decidable (LowerFixed w) := by unfold LowerFixed; infer_instance

theorem variant_lowerChar {c w : Char} (hw : LowerFixed w) (h : CaseVariant c w) : lowerChar c = w := by
  rcases h with rfl | ⟨i, h1, h2⟩ | ⟨rfl, rfl⟩
  · unfold lowerChar; rw [if_neg hw.1, if_neg hw.2]
  · have hi : i < 26 := by
      have := (List.getElem?_eq_some_iff.1 h1).1
      have h26 : "abcdefghijklmnopqrstuvwxyz".toList.length = 26 := by decide
      omega
    have : ∀ i, i < 26 → ("ABCDEFGHIJKLMNOPQRSTUVWXYZ".toList[i]?).map lowerChar = "abcdefghijklmnopqrstuvwxyz".toList[i]? := by decide +kernel
    have := this i hi
    rw [h1, h2] at this
    simpa using this
  · decide

theorem eqIgnoreCase_iff {w : Str} (hw : ∀ c ∈ w, LowerFixed c) {s : Str} : EqIgnoreCase s w ↔ toLowercase s = w := by
  constructor
  · intro h
    induction h with
    | nil => rfl
    | cons hv _ ih =>
      rw [toLowercase, List.map_cons, variant_lowerChar (hw _ (by simp)) hv]
      congr 1
      exact ih (fun c hc => hw c (by simp [hc]))
  · rintro rfl
    clear hw
    induction s with
    | nil => exact .nil
    | cons c s ih => exact .cons (lowerChar_variant c) ih

theorem isWhitespace_lowerChar (c : Char) : isWhitespace (lowerChar c) = isWhitespace c := by
  unfold lowerChar
  by_cases h : 65 ≤ c.toNat ∧ c.toNat ≤ 90
  · rw [if_pos h]
    have e : (Char.ofNat (c.toNat + 32)).toNat = c.toNat + 32 := by
      have : ∀ n, 65 ≤ n → n ≤ 90 → (Char.ofNat (n + 32)).toNat = n + 32 := by
        intro n h1 h2
        have : ∀ i, i < 26 → (Char.ofNat (i + 65 + 32)).toNat = i + 65 + 32 := by decide +kernel
        have := this (n - 65) (by omega)
        rwa [show n - 65 + 65 = n by omega] at this
      exact this _ h.1 h.2
    unfold isWhitespace
    simp only [e]
    generalize c.toNat = n at h ⊢
    rw [Bool.eq_iff_iff]
    simp
    omega
  · rw [if_neg h]
    by_cases hk : c.toNat = 0x212A
    · rw [if_pos hk, char_eq_ofNat c, hk]; decide
    · rw [if_neg hk]

theorem dropWhile_map_eq {f : Char → Char} {p : Char → Bool} (h : ∀ c, p (f c) = p c) (s : Str) :
    (s.map f).dropWhile p = (s.dropWhile p).map f := by
  induction s with
  | nil => rfl
  | cons c s ih =>
    simp only [List.map_cons, List.dropWhile_cons, h]
    cases p c <;> simp [ih]

theorem trim_toLowercase (s : Str) : trim (toLowercase s) = toLowercase (trim s) := by
  unfold trim trimStart trimEnd toLowercase
  rw [dropWhile_map_eq isWhitespace_lowerChar, ← List.map_reverse, dropWhile_map_eq isWhitespace_lowerChar, ← List.map_reverse]

theorem wordText_iff {w : String} (hw : ∀ c ∈ w.toList, LowerFixed c) {s : Str} : WordText s w ↔ trim (toLowercase s) = w.toList := by
  unfold WordText
  rw [exists_trimmed (P := fun t => EqIgnoreCase t w.toList), eqIgnoreCase_iff hw, trim_toLowercase]

theorem parseBool_iff {s : Str} {b : Bool} : parseBool s = .ok b ↔ BoolText s b := by
  unfold BoolText
  rw [wordText_iff (by decide), wordText_iff (by decide), wordText_iff (by decide), wordText_iff (by decide),
    wordText_iff (by decide), wordText_iff (by decide), wordText_iff (by decide), wordText_iff (by decide)]
  unfold parseBool
  simp only
  generalize trim (toLowercase s) = t
  by_cases h1 : t = "true".toList ∨ t = "1".toList ∨ t = "yes".toList ∨ t = "on".toList
  · rw [if_pos h1]
    cases b
    · simp only [R.ok.injEq, Bool.false_eq_true, if_false, reduceCtorEq, false_iff]
      rcases h1 with rfl | rfl | rfl | rfl <;> decide
    · simpa using h1
  · rw [if_neg h1]
    by_cases h2 : t = "false".toList ∨ t = "0".toList ∨ t = "no".toList ∨ t = "off".toList
    · rw [if_pos h2]
      cases b
      · simpa using h2
      · simp only [R.ok.injEq, Bool.false_eq_true, if_true, false_iff]
        exact h1
    · rw [if_neg h2]
      cases b
      · simpa using h2
      · simpa using h1

theorem parseBool_not_panic (s : Str) : parseBool s ≠ .panic := by
  unfold parseBool; simp only; split <;> (try split) <;> simp

theorem errorPolicy_iff {s : Str} {p : ErrorPolicy} : ErrorPolicy.fromStr s = .ok p ↔ PolicyText s p := by
  have e0 := wordText_iff (w := "always") (by decide) (s := s)
  have e1 := wordText_iff (w := "basic-auth") (by decide) (s := s)
  have e2 := wordText_iff (w := "full-auth") (by decide) (s := s)
  cases p <;> simp only [PolicyText, e0, e1, e2, ErrorPolicy.fromStr] <;> generalize trim (toLowercase s) = t
  all_goals
    by_cases h1 : t = "always".toList
    · subst h1; decide
    rw [if_neg h1]
    by_cases h2 : t = "basic-auth".toList
    · subst h2; decide
    rw [if_neg h2]
    by_cases h3 : t = "full-auth".toList
    · subst h3; decide
    rw [if_neg h3]
    simp only [reduceCtorEq, false_iff]
    assumption

theorem errorPolicy_not_panic (s : Str) : ErrorPolicy.fromStr s ≠ .panic := by
  unfold ErrorPolicy.fromStr; simp only; split <;> (try split) <;> (try split) <;> simp

theorem seccomp_iff {s : Str} {p : Seccomp} : Seccomp.fromStr s = .ok p ↔ SeccompText s p := by
  have e0 := wordText_iff (w := "off") (by decide) (s := s)
  have e1 := wordText_iff (w := "log") (by decide) (s := s)
  have e2 := wordText_iff (w := "kill") (by decide) (s := s)
  cases p <;> simp only [SeccompText, e0, e1, e2, Seccomp.fromStr] <;> generalize trim (toLowercase s) = t
  all_goals
    by_cases h1 : t = "off".toList
    · subst h1; decide
    rw [if_neg h1]
    by_cases h2 : t = "log".toList
    · subst h2; decide
    rw [if_neg h2]
    by_cases h3 : t = "kill".toList
    · subst h3; decide
    rw [if_neg h3]
    simp only [reduceCtorEq, false_iff]
    assumption

theorem seccomp_not_panic (s : Str) : Seccomp.fromStr s ≠ .panic := by
  unfold Seccomp.fromStr; simp only; split <;> (try split) <;> (try split) <;> simp

end Letmein
