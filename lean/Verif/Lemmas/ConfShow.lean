import Verif.Lemmas.Conf

/-!
# Lemmas about printed identifiers and keys, and about inserting a line into a file
-/

namespace Letmein

open Spec

/-! ### Printed numbers -/

theorem isDigit_upper : ∀ d, d < 16 → IsDigit 16 (digitUpper d) d := by
  intro d hd
  refine ⟨hd, .inr ?_⟩
  revert d
  decide

theorem numeral_showDigits (digit : Nat → Char) (b : Nat) (hb : 2 ≤ b) (hd : ∀ d, d < b → IsDigit b (digit d) d) (fuel n : Nat) (h : n < fuel) :
    Numeral b (showDigits digit b fuel n) n := by
  induction fuel generalizing n with
  | zero => omega
  | succ fuel ih =>
    rw [showDigits]
    split
    · rename_i hn; exact .digit (hd n hn)
    · rename_i hn
      have hdiv : n / b < fuel := by
        have : n / b < n := Nat.div_lt_self (by omega) (by omega)
        omega
      have := Numeral.snoc (ih _ hdiv) (hd (n % b) (Nat.mod_lt _ (by omega)))
      rwa [Nat.div_add_mod' n b] at this

theorem numeral_showHexUpper (n : Nat) : Numeral 16 (showHexUpper n) n := numeral_showDigits _ _ (by omega) isDigit_upper _ _ (by omega)

theorem numeral_zero {s : Str} {n : Nat} (h : Numeral 16 s n) : Numeral 16 ('0' :: s) n := by
  induction h with
  | @digit c d hd =>
    have := Numeral.snoc (.digit (isDigit_upper 0 (by omega))) hd
    rw [Nat.zero_mul, Nat.zero_add] at this
    exact this
  | snoc h1 h2 ih => exact Numeral.snoc ih h2

theorem numeral_zeros {s : Str} {n : Nat} (h : Numeral 16 s n) (k : Nat) : Numeral 16 (List.replicate k '0' ++ s) n := by
  induction k with
  | zero => exact h
  | succ k ih => exact numeral_zero ih

theorem showDigits_length_le (digit : Nat → Char) (b : Nat) (fuel n k : Nat) (h : n < b ^ (k + 1)) : (showDigits digit b fuel n).length ≤ k + 1 := by
  induction k generalizing fuel n with
  | zero =>
    cases fuel with
    | zero => simp [showDigits]
    | succ fuel =>
      rw [showDigits, if_pos (by simpa using h)]; simp
  | succ k ih =>
    cases fuel with
    | zero => simp [showDigits]
    | succ fuel =>
      rw [showDigits]
      split
      · simp
      · have : n / b < b ^ (k + 1) := by
          apply Nat.div_lt_of_lt_mul
          rw [Nat.mul_comm, ← Nat.pow_succ]; exact h
        have := ih fuel _ this
        simp; omega

theorem padZeros_length {w : Nat} {s : Str} (h : s.length ≤ w) : (padZeros w s).length = w := by simp [padZeros]; omega

theorem showId_length (x : UInt32) : (showId x).length = 8 :=
  padZeros_length (showDigits_length_le _ 16 _ _ 7 x.toNat_lt)

theorem showId_numeral (x : UInt32) : Numeral 16 (showId x) x.toNat := numeral_zeros (numeral_showHexUpper _) _

theorem digitUpper_props : ∀ d, d < 16 → digitUpper d ∈ "0123456789ABCDEF".toList := by decide

theorem mem_padZeros {w n : Nat} {c : Char} (h : c ∈ padZeros w (showHexUpper n)) : c ∈ "0123456789ABCDEF".toList := by
  unfold padZeros at h
  rcases List.mem_append.1 h with h | h
  · rw [List.eq_of_mem_replicate h]; decide
  · obtain ⟨d, hd, rfl⟩ := mem_showDigits (by omega) h
    exact digitUpper_props d hd

theorem mem_showId {x : UInt32} {c : Char} (h : c ∈ showId x) : c ∈ "0123456789ABCDEF".toList := mem_padZeros h

/-- The characters of printed numbers are harmless. -/
theorem hex_char {c : Char} (h : c ∈ "0123456789ABCDEF".toList) : isWhitespace c = false ∧ c ≠ '#' ∧ c ≠ '[' ∧ c ≠ '=' ∧ c ≠ '\n' ∧ c ≠ '\r' := by
  revert c; decide

theorem trimmed_self {s : Str} (h : ∀ c ∈ s, isWhitespace c = false) : Trimmed s s :=
  ⟨⟨[], [], by simp, by simp, by simp⟩, fun c hc => h c (List.mem_of_mem_head? hc), fun c hc => h c (List.mem_of_mem_getLast? hc)⟩

theorem showId_text (x : UInt32) : IdText (showId x) x :=
  ⟨_, trimmed_self (fun c hc => (hex_char (mem_showId hc)).1), .inl (showId_numeral x)⟩

/-! ### Parsing ignores case -/

theorem toNat_upper_shift {n : Nat} (h1 : 65 ≤ n) (h2 : n ≤ 90) : (Char.ofNat (n + 32)).toNat = n + 32 := by
  have : ∀ i, i < 26 → (Char.ofNat (i + 65 + 32)).toNat = i + 65 + 32 := by decide +kernel
  have := this (n - 65) (by omega)
  rwa [show n - 65 + 65 = n by omega] at this

theorem toDigit_lowerChar (c : Char) : toDigit 16 (lowerChar c) = toDigit 16 c := by
  unfold lowerChar
  by_cases h : 65 ≤ c.toNat ∧ c.toNat ≤ 90
  · rw [if_pos h]
    have e := toNat_upper_shift h.1 h.2
    unfold toDigit
    rw [e]
    have h1 : ¬ (48 ≤ c.toNat ∧ c.toNat ≤ 57) := by omega
    have h2 : ¬ (97 ≤ c.toNat ∧ c.toNat ≤ 122) := by omega
    have h3 : ¬ (48 ≤ c.toNat + 32 ∧ c.toNat + 32 ≤ 57) := by omega
    have h4 : 97 ≤ c.toNat + 32 ∧ c.toNat + 32 ≤ 122 := by omega
    simp only [h1, h2, h3, h4, h, and_self, if_true, if_false]
    have : c.toNat + 32 - 87 = c.toNat - 55 := by omega
    rw [this]
  · rw [if_neg h]
    by_cases h2 : c.toNat = 0x212A
    · rw [if_pos h2]
      unfold toDigit
      rw [h2]
      decide
    · rw [if_neg h2]

theorem lowerChar_eq_sign {c s : Char} (hs : s = '+' ∨ s = '-') : lowerChar c = s ↔ c = s := by
  constructor
  · intro h
    unfold lowerChar at h
    by_cases h1 : 65 ≤ c.toNat ∧ c.toNat ≤ 90
    · rw [if_pos h1] at h
      exfalso
      have e := toNat_upper_shift h1.1 h1.2
      rw [h] at e
      rcases hs with rfl | rfl
      · have : '+'.toNat = 43 := by decide
        omega
      · have : '-'.toNat = 45 := by decide
        omega
    · rw [if_neg h1] at h
      by_cases h2 : c.toNat = 0x212A
      · rw [if_pos h2] at h; rcases hs with rfl | rfl <;> exact absurd h (by decide)
      · rw [if_neg h2] at h; exact h
  · rintro rfl; rcases hs with rfl | rfl <;> decide

theorem parseDigits_lower (max acc : Nat) (s : Str) : parseDigits 16 max acc (toLowercase s) = parseDigits 16 max acc s := by
  induction s generalizing acc with
  | nil => rfl
  | cons c s ih =>
    show parseDigits 16 max acc (lowerChar c :: toLowercase s) = _
    simp only [parseDigits, toDigit_lowerChar, ih]

theorem fromStrRadix_lower (max : Nat) (s : Str) : fromStrRadix 16 max (toLowercase s) = fromStrRadix 16 max s := by
  cases s with
  | nil => rfl
  | cons c s =>
    cases s with
    | nil =>
      show fromStrRadix 16 max [lowerChar c] = _
      simp only [fromStrRadix, lowerChar_eq_sign (.inl rfl), lowerChar_eq_sign (.inr rfl)]
      have := parseDigits_lower max 0 [c]
      rw [show toLowercase [c] = [lowerChar c] from rfl] at this
      rw [this]
    | cons d s =>
      have h1 := parseDigits_lower max 0 (d :: s)
      have h2 := parseDigits_lower max 0 (c :: d :: s)
      show fromStrRadix 16 max (lowerChar c :: lowerChar d :: toLowercase s) = _
      rw [show toLowercase (d :: s) = lowerChar d :: toLowercase s from rfl] at h1
      rw [show toLowercase (c :: d :: s) = lowerChar c :: lowerChar d :: toLowercase s from rfl] at h2
      simp only [fromStrRadix, lowerChar_eq_sign (.inl rfl), h1, h2]

theorem parseId_lower (s : Str) : parseId (toLowercase s) = parseId s := by
  unfold parseId
  rw [trim_toLowercase, fromStrRadix_lower]

theorem caseVariant_lower {c w : Char} (h : CaseVariant c w) : lowerChar c = lowerChar w := by
  rcases h with rfl | ⟨i, h1, h2⟩ | ⟨rfl, rfl⟩
  · rfl
  · have hi : i < 26 := by
      have := (List.getElem?_eq_some_iff.1 h1).1
      simpa using this
    have key : ∀ i, i < 26 → ("abcdefghijklmnopqrstuvwxyz".toList[i]?).map lowerChar = ("ABCDEFGHIJKLMNOPQRSTUVWXYZ".toList[i]?).map lowerChar := by
      decide
    have := key i hi
    rw [h1, h2] at this
    injection this with this
    exact this.symm
  · decide

theorem eqIgnoreCase_lower {s t : Str} (h : EqIgnoreCase s t) : toLowercase s = toLowercase t := by
  induction h with
  | nil => rfl
  | cons h1 _ ih => simp only [toLowercase, List.map_cons, caseVariant_lower h1]; rw [show List.map lowerChar _ = _ from ih]; rfl

/-! ### Printed keys -/

theorem showHexByte_eq (b : UInt8) : ∃ x y, x < 16 ∧ y < 16 ∧ showHexByte b = [digitUpper x, digitUpper y] ∧ UInt8.ofNat (16 * x + y) = b := by
  have hb := b.toNat_lt
  refine ⟨b.toNat / 16, b.toNat % 16, by omega, by omega, ?_, ?_⟩
  · have key : ∀ n, n < 256 → padZeros 2 (showHexUpper n) = [digitUpper (n / 16), digitUpper (n % 16)] := by decide +kernel
    exact key _ hb
  · rw [Nat.div_add_mod]; simp

theorem hexPairs_show (bs : Bytes) : HexPairs (bs.map showHexByte).flatten bs := by
  induction bs with
  | nil => exact .nil
  | cons b bs ih =>
    obtain ⟨x, y, hx, hy, h1, h2⟩ := showHexByte_eq b
    rw [List.map_cons, List.flatten_cons, h1]
    have := HexPairs.cons (isDigit_upper x hx) (isDigit_upper y hy) ih
    rw [h2] at this
    exact this

theorem mem_showKey {bs : Bytes} {c : Char} (h : c ∈ (bs.map showHexByte).flatten) : c ∈ "0123456789ABCDEF".toList := by
  rw [List.mem_flatten] at h
  obtain ⟨l, h1, h2⟩ := h
  obtain ⟨b, -, rfl⟩ := List.mem_map.1 h1
  exact mem_padZeros h2

/-! ### Inserting a line -/

theorem lastValue_exists {as : List (Str × Str)} {e : Str × Str} (h : e ∈ as) : ∃ v, LastValue as e.1 v := by
  induction as with
  | nil => cases h
  | cons x as ih =>
    by_cases hin : ∃ f ∈ as, f.1 = e.1
    · have : ∃ v, LastValue as e.1 v := by
        clear ih h
        induction as with
        | nil => obtain ⟨f, hf, -⟩ := hin; cases hf
        | cons y as ih =>
          by_cases h2 : ∃ f ∈ as, f.1 = e.1
          · obtain ⟨v, a, b, rfl, hb⟩ := ih h2
            exact ⟨v, y :: a, b, rfl, hb⟩
          · obtain ⟨f, hf, hfe⟩ := hin
            rcases List.mem_cons.1 hf with rfl | hf
            · exact ⟨f.2, [], as, by rw [← hfe]; rfl, fun g hg hge => h2 ⟨g, hg, hge⟩⟩
            · exact absurd ⟨f, hf, hfe⟩ h2
      obtain ⟨v, a, b, rfl, hb⟩ := this
      exact ⟨v, x :: a, b, rfl, hb⟩
    · rcases List.mem_cons.1 h with rfl | h
      · exact ⟨e.2, [], as, rfl, fun f hf hfe => hin ⟨f, hf, hfe⟩⟩
      · exact absurd ⟨e, h, rfl⟩ hin

theorem lastValue_cons {as : List (Str × Str)} {o v o' v' : Str} (hno : ∀ e ∈ as, e.1 ≠ o) :
    LastValue ((o, v) :: as) o' v' ↔ LastValue as o' v' ∨ (o' = o ∧ v' = v) := by
  constructor
  · rintro ⟨a, b, e, hb⟩
    cases a with
    | nil => simp at e; exact .inr ⟨e.1.1.symm, e.1.2.symm⟩
    | cons x a => simp at e; exact .inl ⟨a, b, e.2, hb⟩
  · rintro (⟨a, b, rfl, hb⟩ | ⟨rfl, rfl⟩)
    · exact ⟨(o, v) :: a, b, rfl, hb⟩
    · exact ⟨[], as, rfl, hno⟩

theorem headerLine_unique {l n n' : Str} (h : HeaderLine l n) (h' : HeaderLine l n') : n = n' := by
  have e := iniLine_header h { sections := [], inSection := none }
  have e' := iniLine_header h' { sections := [], inSection := none }
  rw [e] at e'
  simp [assocGet] at e'
  exact e'.2

theorem headerLine_not_section {b : List Str} {as : List (Str × Str)} (hb : SectionLines b as) {l n : Str} (hl : HeaderLine l n) : l ∉ b := by
  have e := iniLine_header hl { sections := [], inSection := none }
  intro hm
  induction hb with
  | nil => cases hm
  | @ignored l' ls as h1 h2 ih =>
    rcases List.mem_cons.1 hm with rfl | hm
    · rw [iniLine_ignored h1] at e; simp [assocGet] at e
    · exact ih hm
  | @assign l' n' v' ls as h1 h2 ih =>
    rcases List.mem_cons.1 hm with rfl | hm
    · rw [iniLine_assign h1] at e; simp [assocGet] at e
    · exact ih hm

theorem docLines_insert {ls : List Str} {d : Doc} (hd : DocLines ls d) {h n line o v : Str} (hh : HeaderLine h n) (hl : AssignLine line o v)
    {a b : List Str} (he : ls = a ++ h :: b) :
    ∃ d1 as d2, d = d1 ++ (n, as) :: d2 ∧ DocLines (a ++ h :: line :: b) (d1 ++ (n, (o, v) :: as) :: d2) := by
  induction hd generalizing a with
  | nil => cases a <;> cases he
  | @ignored l ls d h1 h2 ih =>
    cases a with
    | nil =>
      simp at he
      obtain ⟨rfl, rfl⟩ := he
      have e := iniLine_header hh { sections := [], inSection := none }
      rw [iniLine_ignored h1] at e; simp [assocGet] at e
    | cons x a =>
      simp at he
      obtain ⟨rfl, rfl⟩ := he
      obtain ⟨d1, as, d2, h3, h4⟩ := ih rfl
      exact ⟨d1, as, d2, h3, .ignored h1 h4⟩
  | @sect l n' b0 ls as d h1 h2 h3 ih =>
    cases a with
    | nil =>
      simp at he
      obtain ⟨rfl, rfl⟩ := he
      have := headerLine_unique h1 hh
      subst this
      exact ⟨[], as, d, rfl, DocLines.sect (b := line :: b0) h1 (.assign hl h2) h3⟩
    | cons x a =>
      simp at he
      obtain ⟨rfl, he⟩ := he
      rcases List.append_eq_append_iff.1 he with ⟨a', rfl, he'⟩ | ⟨c', rfl, he'⟩
      · obtain ⟨d1, as', d2, h4, h5⟩ := ih he'
        refine ⟨(n', as) :: d1, as', d2, by rw [h4]; rfl, ?_⟩
        have := DocLines.sect h1 h2 h5
        simpa using this
      · cases c' with
        | nil =>
          simp at he'
          obtain ⟨d1, as', d2, h4, h5⟩ := ih (a := []) he'.symm
          refine ⟨(n', as) :: d1, as', d2, by rw [h4]; rfl, ?_⟩
          have h2' : SectionLines a as := by simpa using h2
          have := DocLines.sect h1 h2' h5
          simpa using this
        | cons y c' =>
          simp at he'
          obtain ⟨rfl, -⟩ := he'
          exact absurd (by simp) (headerLine_not_section h2 hh)

end Letmein
