import Verif.Spec.Text
import Verif.Lemmas.Text

/-!
# Lemmas: white space, lines, numbers
-/

namespace Letmein

open Spec

/-! ### Numbers -/

theorem char_eq_ofNat (c : Char) : c = Char.ofNat c.toNat := by simp

theorem isDigit_table : ∀ d, d < 36 →
    "0123456789abcdefghijklmnopqrstuvwxyz".toList[d]? = some (Char.ofNat (if d < 10 then 48 + d else 87 + d)) ∧
    "0123456789ABCDEFGHIJKLMNOPQRSTUVWXYZ".toList[d]? = some (Char.ofNat (if d < 10 then 48 + d else 55 + d)) := by
  decide +kernel

theorem digit_chars : ∀ d, d < 36 →
    (Char.ofNat (if d < 10 then 48 + d else 87 + d)).toNat = (if d < 10 then 48 + d else 87 + d) ∧
    (Char.ofNat (if d < 10 then 48 + d else 55 + d)).toNat = (if d < 10 then 48 + d else 55 + d) := by
  decide +kernel

theorem toDigit_iff {radix : Nat} (hr : radix ≤ 36) (c : Char) (d : Nat) : toDigit radix c = some d ↔ IsDigit radix c d := by
  constructor
  · intro h
    unfold toDigit at h
    have hc := char_eq_ofNat c
    generalize c.toNat = n at *
    simp only at h
    have key : ∀ e, (if e < radix then some e else none) = some d → e = d ∧ d < radix := by
      intro e he
      split at he
      · injection he with he; subst he; exact ⟨rfl, by assumption⟩
      · cases he
    by_cases h1 : 48 ≤ n ∧ n ≤ 57
    · rw [if_pos h1] at h
      obtain ⟨h2, h3⟩ := key _ h
      refine ⟨h3, .inl ?_⟩
      rw [(isDigit_table d (by omega)).1, hc, if_pos (by omega)]
      congr 2
      omega
    · rw [if_neg h1] at h
      by_cases h2 : 97 ≤ n ∧ n ≤ 122
      · rw [if_pos h2] at h
        obtain ⟨h4, h3⟩ := key _ h
        refine ⟨h3, .inl ?_⟩
        rw [(isDigit_table d (by omega)).1, hc, if_neg (by omega)]
        congr 2
        omega
      · rw [if_neg h2] at h
        by_cases h5 : 65 ≤ n ∧ n ≤ 90
        · rw [if_pos h5] at h
          obtain ⟨h4, h3⟩ := key _ h
          refine ⟨h3, .inr ?_⟩
          rw [(isDigit_table d (by omega)).2, hc, if_neg (by omega)]
          congr 2
          omega
        · rw [if_neg h5] at h; cases h
  · rintro ⟨hd, h⟩
    have hd36 : d < 36 := by omega
    obtain ⟨t1, t2⟩ := isDigit_table d hd36
    obtain ⟨c1, c2⟩ := digit_chars d hd36
    unfold toDigit
    rw [t1, t2] at h
    have hn : c.toNat = (if d < 10 then 48 + d else 87 + d) ∨ c.toNat = (if d < 10 then 48 + d else 55 + d) := by
      rcases h with h | h <;> injection h with h <;> rw [← h]
      · exact .inl c1
      · exact .inr c2
    generalize c.toNat = n at hn
    simp only
    rcases hn with rfl | rfl
    · by_cases h10 : d < 10
      · simp only [h10, if_true]
        rw [if_pos (by omega)]
        simp [hd]
      · simp only [h10, if_false]
        rw [if_neg (by omega), if_pos (by omega)]
        simp [hd]
    · by_cases h10 : d < 10
      · simp only [h10, if_true]
        rw [if_pos (by omega)]
        simp [hd]
      · simp only [h10, if_false]
        rw [if_neg (by omega), if_neg (by omega), if_pos (by omega)]
        simp [hd]

theorem toDigit_lt {radix : Nat} {c : Char} {d : Nat} (h : toDigit radix c = some d) : d < radix := by
  unfold toDigit at h
  simp only at h
  generalize (if 48 ≤ c.toNat ∧ c.toNat ≤ 57 then some (c.toNat - 48) else if 97 ≤ c.toNat ∧ c.toNat ≤ 122 then some (c.toNat - 87)
    else if 65 ≤ c.toNat ∧ c.toNat ≤ 90 then some (c.toNat - 55) else none : Option Nat) = x at h
  cases x with
  | none => cases h
  | some e =>
    simp only at h
    split at h
    · injection h with h; omega
    · cases h

/-- The value of a digit string, without overflow check. -/
def digitsValue (radix : Nat) : Nat → Str → Option Nat
  | acc, [] => some acc
  | acc, c :: rest => match toDigit radix c with
    | none => none
    | some d => digitsValue radix (acc * radix + d) rest

theorem digitsValue_ge {radix : Nat} (hr : 0 < radix) {acc n : Nat} {s : Str} (h : digitsValue radix acc s = some n) : acc ≤ n := by
  induction s generalizing acc with
  | nil => injection h with h; omega
  | cons c s ih =>
    rw [digitsValue] at h
    split at h
    · cases h
    · rename_i d _
      have := ih h
      have : acc ≤ acc * radix := Nat.le_mul_of_pos_right _ hr
      omega

theorem parseDigits_iff {radix : Nat} (hr : 0 < radix) {max : Nat} {acc n : Nat} {s : Str} (ha : acc ≤ max) :
    parseDigits radix max acc s = .ok n ↔ digitsValue radix acc s = some n ∧ n ≤ max := by
  induction s generalizing acc with
  | nil =>
    simp only [parseDigits, digitsValue, R.ok.injEq, Option.some.injEq]
    constructor
    · rintro rfl; exact ⟨rfl, ha⟩
    · exact fun h => h.1
  | cons c s ih =>
    rw [parseDigits, digitsValue]
    cases toDigit radix c with
    | none => simp
    | some d =>
      simp only
      by_cases ho : acc * radix + d > max
      · rw [if_pos ho]
        constructor
        · intro h; cases h
        · rintro ⟨h, hn⟩
          have := digitsValue_ge hr h
          omega
      · rw [if_neg ho]
        exact ih (by omega)

theorem parseDigits_not_panic {radix max acc : Nat} {s : Str} : parseDigits radix max acc s ≠ .panic := by
  induction s generalizing acc with
  | nil => simp [parseDigits]
  | cons c s ih =>
    rw [parseDigits]
    split
    · simp
    · split
      · simp
      · exact ih

theorem digitsValue_append {radix acc : Nat} {s t : Str} :
    digitsValue radix acc (s ++ t) = (digitsValue radix acc s).bind (fun a => digitsValue radix a t) := by
  induction s generalizing acc with
  | nil => rfl
  | cons c s ih =>
    simp only [List.cons_append, digitsValue]
    cases toDigit radix c with
    | none => rfl
    | some d => exact ih

theorem numeral_digitsValue {radix : Nat} (hr : radix ≤ 36) {s : Str} {n : Nat} (h : Numeral radix s n) :
    s ≠ [] ∧ digitsValue radix 0 s = some n := by
  induction h with
  | digit hd => simp [digitsValue, (toDigit_iff hr _ _).2 hd]
  | snoc _ hd ih => simp [digitsValue_append, ih, digitsValue, (toDigit_iff hr _ _).2 hd]

theorem digitsValue_numeral {radix : Nat} (hr : radix ≤ 36) {s t : Str} {a n : Nat} (ht : Numeral radix t a)
    (h : digitsValue radix a s = some n) : Numeral radix (t ++ s) n := by
  induction s generalizing t a with
  | nil => injection h with h; subst h; simpa using ht
  | cons c s ih =>
    rw [digitsValue] at h
    split at h
    · cases h
    · rename_i d hd
      have := ih (ht.snoc ((toDigit_iff hr _ _).1 hd)) h
      simpa using this

theorem numeral_iff {radix : Nat} (hr : radix ≤ 36) {s : Str} {n : Nat} :
    Numeral radix s n ↔ s ≠ [] ∧ digitsValue radix 0 s = some n := by
  refine ⟨numeral_digitsValue hr, ?_⟩
  rintro ⟨hne, h⟩
  cases s with
  | nil => exact absurd rfl hne
  | cons c s =>
    rw [digitsValue] at h
    split at h
    · cases h
    · rename_i d hd
      have := digitsValue_numeral hr (t := [c]) (.digit ((toDigit_iff hr _ _).1 hd)) (s := s) (n := n) (by simpa using h)
      simpa using this

theorem toDigit_plus (radix : Nat) : toDigit radix '+' = none := by simp [toDigit]
theorem toDigit_minus (radix : Nat) : toDigit radix '-' = none := by simp [toDigit]

theorem numeral_unique {radix : Nat} (hr : radix ≤ 36) {s : Str} {n m : Nat} (h1 : Number radix s n) (h2 : Number radix s m) : n = m := by
  have hplus : ∀ t k, ¬ Numeral radix ('+' :: t) k := by
    intro t k h
    have := ((numeral_iff hr).1 h).2
    simp [digitsValue, toDigit_plus] at this
  rcases h1 with h1 | ⟨t, rfl, h1⟩
  · rcases h2 with h2 | ⟨t, rfl, h2⟩
    · have a := ((numeral_iff hr).1 h1).2
      have b := ((numeral_iff hr).1 h2).2
      rw [a] at b
      injection b
    · exact absurd h1 (hplus _ _)
  · rcases h2 with h2 | ⟨t', ht, h2⟩
    · exact absurd h2 (hplus _ _)
    · injection ht with _ ht
      subst ht
      have a := ((numeral_iff hr).1 h1).2
      have b := ((numeral_iff hr).1 h2).2
      rw [a] at b
      injection b

/-- `from_str_radix` accepts exactly the numbers up to the maximum. -/
theorem fromStrRadix_iff {radix : Nat} (hr : 0 < radix) (hr' : radix ≤ 36) {max n : Nat} {s : Str} :
    fromStrRadix radix max s = .ok n ↔ Number radix s n ∧ n ≤ max := by
  unfold Number
  simp only [numeral_iff hr']
  cases s with
  | nil => simp [fromStrRadix]
  | cons c rest =>
    by_cases hc : c = '+'
    · subst hc
      cases rest with
      | nil => simp [fromStrRadix, digitsValue, toDigit_plus]
      | cons c2 rest =>
        simp only [fromStrRadix, if_true, parseDigits_iff hr (Nat.zero_le max)]
        rw [show digitsValue radix 0 ('+' :: c2 :: rest) = none by simp [digitsValue, toDigit_plus]]
        simp
    · have h2 : fromStrRadix radix max (c :: rest) = .ok n ↔ parseDigits radix max 0 (c :: rest) = .ok n := by
        cases rest with
        | nil =>
          simp only [fromStrRadix, hc, false_or]
          by_cases hm : c = '-'
          · subst hm; simp [parseDigits, toDigit_minus]
          · simp [hm]
        | cons c2 rest => simp [fromStrRadix, hc]
      rw [h2, parseDigits_iff hr (Nat.zero_le max)]
      constructor
      · rintro ⟨h, hn⟩; exact ⟨.inl ⟨by simp, h⟩, hn⟩
      · rintro ⟨⟨_, h⟩ | ⟨t, ht, _⟩, hn⟩
        · exact ⟨h, hn⟩
        · injection ht with ht _; exact absurd ht hc

theorem fromStrRadix_not_panic {radix max : Nat} {s : Str} : fromStrRadix radix max s ≠ .panic := by
  unfold fromStrRadix
  split
  · simp
  · split
    · simp
    · exact parseDigits_not_panic
  · split <;> exact parseDigits_not_panic

theorem fromStrRadix_le {radix max n : Nat} (hr : 0 < radix) (hr' : radix ≤ 36) {s : Str} (h : fromStrRadix radix max s = .ok n) : n ≤ max :=
  ((fromStrRadix_iff hr hr').1 h).2

theorem parseU32Dec_iff {s : Str} {x : UInt32} : parseU32Dec s = .ok x ↔ Number 10 s x.toNat := by
  unfold parseU32Dec
  constructor
  · intro h
    cases hf : fromStrRadix 10 0xFFFFFFFF s with
    | ok n =>
      rw [hf, R.bind_ok] at h
      injection h with h
      obtain ⟨h1, h2⟩ := (fromStrRadix_iff (by decide) (by decide)).1 hf
      have hlt : n < 2 ^ 32 := by omega
      subst h
      simpa [Nat.mod_eq_of_lt hlt] using h1
    | err => rw [hf] at h; simp at h
    | panic => rw [hf] at h; simp at h
  · intro h
    have hx : x.toNat ≤ 0xFFFFFFFF := by have := x.toNat_lt; omega
    rw [(fromStrRadix_iff (by decide) (by decide)).2 ⟨h, hx⟩, R.bind_ok]
    simp

/-! ### White space -/

theorem trimStart_spec (s : Str) : ∃ a, s = a ++ trimStart s ∧ (∀ c ∈ a, isWhitespace c = true) ∧
    ∀ c, (trimStart s).head? = some c → isWhitespace c = false := by
  refine ⟨s.takeWhile isWhitespace, List.takeWhile_append_dropWhile.symm, ?_, ?_⟩
  · intro c hc
    have := List.all_takeWhile (l := s) (p := isWhitespace)
    exact List.all_eq_true.1 this c hc
  · intro c hc
    have := List.head?_dropWhile_not isWhitespace s
    unfold trimStart at hc
    rw [hc] at this
    simpa using this

theorem trimEnd_spec (s : Str) : ∃ b, s = trimEnd s ++ b ∧ (∀ c ∈ b, isWhitespace c = true) ∧
    ∀ c, (trimEnd s).getLast? = some c → isWhitespace c = false := by
  obtain ⟨a, h1, h2, h3⟩ := trimStart_spec s.reverse
  refine ⟨a.reverse, ?_, ?_, ?_⟩
  · have := congrArg List.reverse h1
    rw [List.reverse_reverse, List.reverse_append] at this
    exact this
  · intro c hc; exact h2 c (List.mem_reverse.1 hc)
  · intro c hc
    rw [trimEnd, List.getLast?_reverse] at hc
    exact h3 c hc

theorem trim_spec (s : Str) : Trimmed s (trim s) := by
  obtain ⟨a, h1, h2, h3⟩ := trimStart_spec s
  obtain ⟨b, h4, h5, h6⟩ := trimEnd_spec (trimStart s)
  refine ⟨⟨a, b, ?_, h2, h5⟩, ?_, h6⟩
  · rw [List.append_assoc]
    unfold trim
    rw [← h4]
    exact h1
  · intro c hc
    apply h3
    rw [h4, List.head?_append]
    unfold trim at hc
    rw [hc]
    rfl

end Letmein
