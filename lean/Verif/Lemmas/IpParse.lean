import Verif.Model.IpParse
import Verif.Spec.IpParse
import Verif.Lemmas.Ip
import Verif.Lemmas.StdText
import Verif.Lemmas.ConfNum

/-!
# The parser of address literals reads what they mean
-/

namespace Letmein

open Spec

/-! ## Digits -/

theorem toDigit_of_ge {radix : Nat} {c : Char} (h : 128 ≤ c.toNat) : toDigit radix c = none := by
  unfold toDigit
  simp only
  rw [if_neg (by omega), if_neg (by omega), if_neg (by omega)]

theorem hexValue_eq (c : Char) : hexValue c = toDigit 16 c := by
  by_cases h : c.toNat < 128
  · have key : ∀ n, n < 128 → hexValue (Char.ofNat n) = toDigit 16 (Char.ofNat n) := by decide +kernel
    have := key c.toNat h
    rwa [Char.ofNat_toNat] at this
  · rw [toDigit_of_ge (by omega)]
    have h1 : ∀ x ∈ "0123456789abcdef".toList, x.toNat < 128 := by decide +kernel
    have h2 : ∀ x ∈ "0123456789ABCDEF".toList, x.toNat < 128 := by decide +kernel
    have e1 : "0123456789abcdef".toList.idxOf? c = none := by
      rw [List.idxOf?_eq_none_iff]
      exact fun hc => h (h1 c hc)
    have e2 : "0123456789ABCDEF".toList.idxOf? c = none := by
      rw [List.idxOf?_eq_none_iff]
      exact fun hc => h (h2 c hc)
    rw [hexValue, e1, e2]
    rfl

theorem toDigit_radix {b : Nat} (hb : b ≤ 16) (c : Char) :
    toDigit b c = match toDigit 16 c with
      | some d => if d < b then some d else none
      | none => none := by
  unfold toDigit
  simp only
  generalize (if 48 ≤ c.toNat ∧ c.toNat ≤ 57 then some (c.toNat - 48)
    else if 97 ≤ c.toNat ∧ c.toNat ≤ 122 then some (c.toNat - 87)
    else if 65 ≤ c.toNat ∧ c.toNat ≤ 90 then some (c.toNat - 55) else none) = x
  cases x with
  | none => rfl
  | some d =>
    simp only
    by_cases h : d < 16
    · rw [if_pos h]
    · rw [if_neg h, if_neg (by omega)]

theorem foldlM_moreDigits {b : Nat} (hb : b ≤ 16) (acc : Nat) (s : Str) : s.foldlM (moreDigits b) acc = digitsValue b acc s := by
  induction s generalizing acc with
  | nil => rfl
  | cons c s ih =>
    rw [List.foldlM_cons, digitsValue, moreDigits, hexValue_eq, toDigit_radix hb]
    cases toDigit 16 c with
    | none => rfl
    | some d =>
      simp only
      by_cases h : d < b
      · rw [if_pos h, if_pos h]; exact ih _
      · rw [if_neg h, if_neg h]; rfl

theorem numeralValue_eq {b : Nat} (hb : b ≤ 16) (s : Str) : numeralValue b s = if s = [] then none else digitsValue b 0 s := by
  rw [numeralValue, foldlM_moreDigits hb]

theorem digitsValue_upper {radix acc n : Nat} {s : Str} (h : digitsValue radix acc s = some n) : n + 1 ≤ (acc + 1) * radix ^ s.length := by
  induction s generalizing acc with
  | nil => injection h with h; simp [h]
  | cons c s ih =>
    rw [digitsValue] at h
    cases hd : toDigit radix c with
    | none => rw [hd] at h; cases h
    | some d =>
      rw [hd] at h
      have h1 := ih h
      have h2 := toDigit_lt hd
      have h3 : acc * radix + d + 1 ≤ (acc + 1) * radix := by rw [Nat.add_mul]; omega
      have h4 := Nat.mul_le_mul_right (radix ^ s.length) h3
      rw [List.length_cons, Nat.pow_succ, Nat.mul_comm (radix ^ s.length) radix, ← Nat.mul_assoc]
      omega

theorem digitsValue_lower {radix acc n : Nat} {s : Str} (h : digitsValue radix acc s = some n) : acc * radix ^ s.length ≤ n := by
  induction s generalizing acc with
  | nil => injection h with h; simp [h]
  | cons c s ih =>
    rw [digitsValue] at h
    cases hd : toDigit radix c with
    | none => rw [hd] at h; cases h
    | some d =>
      rw [hd] at h
      have h1 := ih h
      have h4 := Nat.mul_le_mul_right (radix ^ s.length) (Nat.le_add_right (acc * radix) d)
      rw [List.length_cons, Nat.pow_succ, Nat.mul_comm (radix ^ s.length) radix, ← Nat.mul_assoc]
      omega

theorem toDigit_ten_zero {c : Char} (h : toDigit 10 c = some 0) : c = '0' := by
  have h2 : 48 = c.toNat := by
    unfold toDigit at h
    simp only at h
    by_cases h1 : 48 ≤ c.toNat ∧ c.toNat ≤ 57
    · rw [if_pos h1] at h
      simp only at h
      rw [if_pos (by omega)] at h
      injection h with h
      omega
    · rw [if_neg h1] at h
      by_cases h2 : 97 ≤ c.toNat ∧ c.toNat ≤ 122
      · rw [if_pos h2] at h
        simp only at h
        rw [if_neg (by omega)] at h
        cases h
      · rw [if_neg h2] at h
        by_cases h3 : 65 ≤ c.toNat ∧ c.toNat ≤ 90
        · rw [if_pos h3] at h
          simp only at h
          rw [if_neg (by omega)] at h
          cases h
        · rw [if_neg h3] at h; cases h
  rw [← Char.ofNat_toNat c, ← h2]

/-! ## Numbers -/

/-- The text does not go on with a digit. -/
def StopsAt (radix : Nat) (rest : Str) : Prop := ∀ c r, rest = c :: r → toDigit radix c = none

theorem stopsAt_nil (radix : Nat) : StopsAt radix [] := fun _ _ h => (by cases h)
theorem stopsAt_cons {radix : Nat} {c : Char} (h : toDigit radix c = none) (r : Str) : StopsAt radix (c :: r) := by
  intro _ _ he
  injection he with h1 _
  rw [← h1]; exact h

theorem readNumberLoop_iff {radix m acc cnt v k : Nat} {s rest : Str} (hc : cnt ≤ m) :
    readNumberLoop radix m acc cnt s = some (v, k, rest) ↔
      ∃ p, s = p ++ rest ∧ digitsValue radix acc p = some v ∧ k = cnt + p.length ∧ k ≤ m ∧ StopsAt radix rest := by
  induction s generalizing acc cnt with
  | nil =>
    simp only [readNumberLoop, Option.some.injEq, Prod.mk.injEq]
    constructor
    · rintro ⟨rfl, rfl, rfl⟩
      exact ⟨[], rfl, rfl, rfl, hc, stopsAt_nil _⟩
    · rintro ⟨p, h1, h2, h3, -, -⟩
      obtain ⟨rfl, rfl⟩ := List.append_eq_nil_iff.1 h1.symm
      injection h2 with h2
      exact ⟨h2, by simpa using h3.symm, rfl⟩
  | cons c s ih =>
    rw [readNumberLoop]
    cases hd : toDigit radix c with
    | none =>
      simp only [Option.some.injEq, Prod.mk.injEq]
      constructor
      · rintro ⟨rfl, rfl, rfl⟩
        exact ⟨[], rfl, rfl, rfl, hc, stopsAt_cons hd _⟩
      · rintro ⟨p, h1, h2, h3, -, -⟩
        cases p with
        | nil => injection h2 with h2; exact ⟨h2, by simpa using h3.symm, h1⟩
        | cons x p =>
          injection h1 with h1 _
          subst h1
          rw [digitsValue, hd] at h2; cases h2
    | some d =>
      simp only
      by_cases ho : cnt + 1 > m
      · rw [if_pos ho]
        constructor
        · intro h; cases h
        · rintro ⟨p, h1, h2, h3, h4, h5⟩
          cases p with
          | nil => have := h5 c s h1.symm; rw [hd] at this; cases this
          | cons x p => rw [List.length_cons] at h3; omega
      · rw [if_neg ho, ih (by omega)]
        constructor
        · rintro ⟨p, rfl, h2, h3, h4, h5⟩
          exact ⟨c :: p, rfl, by rw [digitsValue, hd]; exact h2, by rw [List.length_cons]; omega, h4, h5⟩
        · rintro ⟨p, h1, h2, h3, h4, h5⟩
          cases p with
          | nil => have := h5 c s h1.symm; rw [hd] at this; cases this
          | cons x p =>
            injection h1 with h1 h6
            subst h1
            rw [digitsValue, hd] at h2
            exact ⟨p, h6, h2, by rw [List.length_cons] at h3; omega, h4, h5⟩

/-- The text of a number. -/
structure NumText (radix m max : Nat) (zero : Bool) (p : Str) (n : Nat) : Prop where
  nonempty : p ≠ []
  length : p.length ≤ m
  value : digitsValue radix 0 p = some n
  le : n ≤ max
  plain : zero = false → 2 ≤ p.length → p.head? ≠ some '0'

theorem readNumber_iff {radix m max : Nat} {zero : Bool} {s rest : Str} {n : Nat} :
    readNumber radix m max zero s = some (n, rest) ↔ ∃ p, s = p ++ rest ∧ NumText radix m max zero p n ∧ StopsAt radix rest := by
  have head : ∀ {p rest : Str}, p ≠ [] → (p ++ rest).head? = p.head? := by
    intro p rest h
    cases p with
    | nil => exact absurd rfl h
    | cons x p => rfl
  unfold readNumber
  constructor
  · intro h
    split at h
    · rename_i r cnt rest' hl
      rw [readNumberLoop_iff (by omega)] at hl
      obtain ⟨p, h1, h2, h3, h4, h5⟩ := hl
      split at h
      · cases h
      · split at h
        · cases h
        · rename_i h0 hz
          split at h
          · rename_i hle
            simp only [Option.some.injEq, Prod.mk.injEq] at h
            obtain ⟨rfl, rfl⟩ := h
            have hp : p ≠ [] := by rintro rfl; simp at h3; exact h0 h3
            refine ⟨p, h1, ⟨hp, by omega, h2, hle, ?_⟩, h5⟩
            intro hz0 hlen hh
            apply hz
            rw [h1, head hp, hh, hz0]
            simp; omega
          · cases h
    · cases h
  · rintro ⟨p, rfl, hp, hs⟩
    have := (readNumberLoop_iff (radix := radix) (m := m) (acc := 0) (cnt := 0) (by omega)).2 ⟨p, rfl, hp.value, rfl, by have := hp.length; omega, hs⟩
    rw [this]
    simp only
    have hne : p.length ≠ 0 := by have := hp.nonempty; cases p <;> simp_all
    rw [if_neg (by omega), if_neg, if_pos hp.le]
    intro hx
    simp only [Bool.and_eq_true, Bool.not_eq_true', beq_iff_eq, decide_eq_true_eq] at hx
    obtain ⟨⟨h1, h2⟩, h3⟩ := hx
    rw [head hp.nonempty] at h2
    exact hp.plain h1 (by omega) h2

/-! ## IPv4 -/

/-- The text of a dotted number. -/
abbrev OctetText (p : Str) (n : Nat) : Prop := NumText 10 3 255 false p n

theorem octetText_iff {p : Str} {n : Nat} :
    OctetText p n ↔ numeralValue 10 p = some n ∧ n ≤ 255 ∧ (2 ≤ p.length → p.head? ≠ some '0') := by
  rw [numeralValue_eq (by omega)]
  constructor
  · intro h
    exact ⟨by rw [if_neg h.nonempty]; exact h.value, h.le, h.plain rfl⟩
  · rintro ⟨h1, h2, h3⟩
    split at h1
    · cases h1
    · rename_i hne
      refine ⟨hne, ?_, h1, h2, fun _ => h3⟩
      match p, hne with
      | [], hne => exact absurd rfl hne
      | c :: p, _ =>
        rw [digitsValue] at h1
        cases hd : toDigit 10 c with
        | none => rw [hd] at h1; cases h1
        | some d =>
          rw [hd] at h1
          have := digitsValue_lower h1
          by_cases hl : 2 ≤ (c :: p).length
          · have hd0 : d ≠ 0 := by
              rintro rfl
              exact h3 hl (by rw [toDigit_ten_zero hd]; rfl)
            by_cases hl4 : (c :: p).length ≤ 3
            · exact hl4
            · exfalso
              have hl3 : 3 ≤ p.length := by rw [List.length_cons] at hl4; omega
              have h4 : 10 ^ 3 ≤ 10 ^ p.length := Nat.pow_le_pow_right (by omega) hl3
              have h5 : 1 * 10 ^ p.length ≤ (0 * 10 + d) * 10 ^ p.length := Nat.mul_le_mul_right _ (by omega)
              omega
          · omega

theorem digitsValue_chars {radix acc n : Nat} {s : Str} (h : digitsValue radix acc s = some n) {c : Char} (hc : toDigit radix c = none) : c ∉ s := by
  intro hm
  obtain ⟨d, hd⟩ := digitsValue_all h c hm
  rw [hc] at hd; cases hd

theorem readSeparator_succ {α : Type} {sep : Char} {i : Nat} {inner : Str → Option (α × Str)} {s : Str} {x : α × Str} :
    readSeparator sep (i + 1) inner s = some x ↔ ∃ s', s = sep :: s' ∧ inner s' = some x := by
  unfold readSeparator
  rw [if_pos (by omega)]
  cases s with
  | nil => simp [readGivenChar]
  | cons c s =>
    simp only [readGivenChar]
    by_cases h : c = sep
    · rw [if_pos h]; subst h; simp
    · rw [if_neg h]
      simp [h]

theorem readSeparator_zero {α : Type} {sep : Char} {inner : Str → Option (α × Str)} {s : Str} : readSeparator sep 0 inner s = inner s := by
  simp [readSeparator]

/-- The text of an IPv4 address. -/
def Ipv4Text (s : Str) (a : Arr 4) : Prop :=
  ∃ p q r t k l m n, s = p ++ '.' :: (q ++ '.' :: (r ++ '.' :: t)) ∧ OctetText p k ∧ OctetText q l ∧ OctetText r m ∧ OctetText t n ∧
    a.val = [UInt8.ofNat k, UInt8.ofNat l, UInt8.ofNat m, UInt8.ofNat n]

theorem dot_stops : toDigit 10 '.' = none := by decide +kernel
theorem dot_stops_hex : toDigit 16 '.' = none := by decide +kernel
theorem colon_stops : toDigit 10 ':' = none := by decide +kernel
theorem colon_stops_hex : toDigit 16 ':' = none := by decide +kernel

theorem readIpv4Addr_iff {s rest : Str} {a : Arr 4} :
    readIpv4Addr s = some (a, rest) ↔ ∃ t, s = t ++ rest ∧ Ipv4Text t a ∧ StopsAt 10 rest := by
  unfold readIpv4Addr
  simp only [readSeparator_zero, Option.bind_eq_bind, Option.bind_eq_some_iff, Prod.exists, Option.pure_def, Option.some.injEq, Prod.mk.injEq]
  constructor
  · rintro ⟨k, s1, h1, l, s2, h2, m, s3, h3, n, s4, h4, ha, rfl⟩
    rw [readSeparator_succ] at h2 h3 h4
    obtain ⟨s1', rfl, h2⟩ := h2
    obtain ⟨s2', rfl, h3⟩ := h3
    obtain ⟨s3', rfl, h4⟩ := h4
    rw [readNumber_iff] at h1 h2 h3 h4
    obtain ⟨p, rfl, e1, -⟩ := h1
    obtain ⟨q, rfl, e2, -⟩ := h2
    obtain ⟨r, rfl, e3, -⟩ := h3
    obtain ⟨t, rfl, e4, e5⟩ := h4
    exact ⟨p ++ '.' :: (q ++ '.' :: (r ++ '.' :: t)), by simp, ⟨p, q, r, t, k, l, m, n, rfl, e1, e2, e3, e4, by rw [← ha]⟩, e5⟩
  · rintro ⟨_, rfl, ⟨p, q, r, t, k, l, m, n, rfl, e1, e2, e3, e4, ha⟩, e5⟩
    refine ⟨k, '.' :: (q ++ '.' :: (r ++ '.' :: (t ++ rest))), ?_, l, '.' :: (r ++ '.' :: (t ++ rest)), ?_, m, '.' :: (t ++ rest), ?_, n, rest, ?_, ?_, rfl⟩
    · rw [readNumber_iff]; exact ⟨p, by simp, e1, stopsAt_cons dot_stops _⟩
    · rw [readSeparator_succ]; exact ⟨_, rfl, readNumber_iff.2 ⟨q, rfl, e2, stopsAt_cons dot_stops _⟩⟩
    · rw [readSeparator_succ]; exact ⟨_, rfl, readNumber_iff.2 ⟨r, rfl, e3, stopsAt_cons dot_stops _⟩⟩
    · rw [readSeparator_succ]; exact ⟨_, rfl, readNumber_iff.2 ⟨t, rfl, e4, e5⟩⟩
    · exact Subtype.ext ha.symm

theorem octetText_no {p : Str} {n : Nat} (h : OctetText p n) {c : Char} (hc : toDigit 10 c = none) : c ∉ p := digitsValue_chars h.value hc

theorem readByte_iff {p : Str} {x : UInt8} : readByte p = some x ↔ ∃ n, numeralValue 10 p = some n ∧ n ≤ 255 ∧ x = UInt8.ofNat n := by
  unfold readByte
  cases numeralValue 10 p with
  | none => simp
  | some n =>
    simp only [Option.some.injEq, exists_eq_left']
    by_cases h : n ≤ 255
    · simp [h, eq_comm]
    · simp [h]

theorem ipv4Text_pieces {p q r t : Str} (hp : '.' ∉ p) (hq : '.' ∉ q) (hr : '.' ∉ r) (ht : '.' ∉ t) :
    pieces '.' (p ++ '.' :: (q ++ '.' :: (r ++ '.' :: t))) = [p, q, r, t] := by
  rw [pieces_eq, splitOn_append_sep hp, splitOn_append_sep hq, splitOn_append_sep hr, splitOn_of_not_mem ht]

/-- The texts of IPv4 addresses are those that have the meaning, without superfluous zeros. -/
theorem ipv4Text_iff {s : Str} {a : Arr 4} : Ipv4Text s a ↔ readIpv4 s = some a ∧ PlainOctets s := by
  constructor
  · rintro ⟨p, q, r, t, k, l, m, n, rfl, e1, e2, e3, e4, ha⟩
    have hps := ipv4Text_pieces (octetText_no e1 dot_stops) (octetText_no e2 dot_stops) (octetText_no e3 dot_stops) (octetText_no e4 dot_stops)
    rw [readIpv4, PlainOctets, hps]
    have rb : ∀ {p : Str} {n : Nat}, OctetText p n → readByte p = some (UInt8.ofNat n) := fun h =>
      readByte_iff.2 ⟨_, (octetText_iff.1 h).1, h.le, rfl⟩
    simp only [List.map, rb e1, rb e2, rb e3, rb e4]
    refine ⟨congrArg some (Subtype.ext ha.symm), ?_⟩
    intro x hx
    simp only [List.mem_cons, List.not_mem_nil, or_false] at hx
    rcases hx with rfl | rfl | rfl | rfl
    · exact e1.plain rfl
    · exact e2.plain rfl
    · exact e3.plain rfl
    · exact e4.plain rfl
  · rintro ⟨h, hp⟩
    unfold readIpv4 at h
    split at h
    · rename_i x y z w hm
      match hs : pieces '.' s with
      | [] => rw [hs] at hm; cases hm
      | [_] => rw [hs] at hm; simp at hm
      | [_, _] => rw [hs] at hm; simp at hm
      | [_, _, _] => rw [hs] at hm; simp at hm
      | _ :: _ :: _ :: _ :: _ :: _ => rw [hs] at hm; simp at hm
      | [p, q, r, t] =>
        rw [hs] at hm
        simp only [List.map, List.cons.injEq, and_true] at hm
        obtain ⟨h1, h2, h3, h4⟩ := hm
        rw [readByte_iff] at h1 h2 h3 h4
        obtain ⟨k, a1, b1, c1⟩ := h1
        obtain ⟨l, a2, b2, c2⟩ := h2
        obtain ⟨m, a3, b3, c3⟩ := h3
        obtain ⟨n, a4, b4, c4⟩ := h4
        rw [PlainOctets, hs] at hp
        have hj := joinWith_splitOn '.' s
        rw [← pieces_eq, hs] at hj
        refine ⟨p, q, r, t, k, l, m, n, hj.symm, octetText_iff.2 ⟨a1, b1, hp p (by simp)⟩, octetText_iff.2 ⟨a2, b2, hp q (by simp)⟩,
          octetText_iff.2 ⟨a3, b3, hp r (by simp)⟩, octetText_iff.2 ⟨a4, b4, hp t (by simp)⟩, ?_⟩
        injection h with h
        rw [← h, c1, c2, c3, c4]
    · cases h

theorem ipv4Text_no {s : Str} {a : Arr 4} (h : Ipv4Text s a) {c : Char} (hc : toDigit 10 c = none) (hd : c ≠ '.') : c ∉ s := by
  obtain ⟨p, q, r, t, k, l, m, n, rfl, e1, e2, e3, e4, -⟩ := h
  have := octetText_no e1 hc
  have := octetText_no e2 hc
  have := octetText_no e3 hc
  have := octetText_no e4 hc
  simp_all

theorem ipv4Text_dot {s : Str} {a : Arr 4} (h : Ipv4Text s a) : '.' ∈ s := by
  obtain ⟨p, q, r, t, k, l, m, n, rfl, -⟩ := h
  simp

theorem ipv4Text_ne {s : Str} {a : Arr 4} (h : Ipv4Text s a) : s ≠ [] := by
  rintro rfl
  exact absurd (ipv4Text_dot h) (by simp)

/-! ## Groups -/

/-- The text of a group. -/
abbrev GroupText (p : Str) (g : Nat) : Prop := NumText 16 4 65535 true p g

theorem groupText_iff {p : Str} {g : Nat} : GroupText p g ↔ numeralValue 16 p = some g ∧ p.length ≤ 4 := by
  rw [numeralValue_eq (by omega)]
  constructor
  · intro h
    exact ⟨by rw [if_neg h.nonempty]; exact h.value, h.length⟩
  · rintro ⟨h1, h2⟩
    split at h1
    · cases h1
    · rename_i hne
      refine ⟨hne, h2, h1, ?_, fun h => (by cases h)⟩
      have h3 := digitsValue_upper h1
      have h4 : 16 ^ p.length ≤ 16 ^ 4 := Nat.pow_le_pow_right (by omega) h2
      simp only [Nat.zero_add, Nat.one_mul] at h3
      omega

theorem groupText_no {p : Str} {g : Nat} (h : GroupText p g) {c : Char} (hc : toDigit 16 c = none) : c ∉ p := digitsValue_chars h.value hc

/-- The texts of groups, the last possibly of an IPv4 address. -/
inductive Toks : List Str → List Nat → Bool → Prop
  | nil : Toks [] [] false
  | v4 {t : Str} {a : Arr 4} : Ipv4Text t a → Toks [t] (ipv4Groups a) true
  | cons {p : Str} {g : Nat} {ps : List Str} {gs : List Nat} {b : Bool} : GroupText p g → Toks ps gs b → Toks (p :: ps) (g :: gs) b

theorem toks_token {ps : List Str} {gs : List Nat} {b : Bool} (h : Toks ps gs b) : ∀ t ∈ ps, t ≠ [] ∧ ':' ∉ t := by
  induction h with
  | nil => simp
  | v4 h =>
    intro t ht
    simp only [List.mem_singleton] at ht
    subst ht
    exact ⟨ipv4Text_ne h, ipv4Text_no h colon_stops (by decide)⟩
  | cons hp _ ih =>
    intro t ht
    rcases List.mem_cons.1 ht with rfl | ht
    · exact ⟨hp.nonempty, groupText_no hp colon_stops_hex⟩
    · exact ih t ht

/-- Items with colons between them, and in front if there are items before. -/
def colonJoin : Nat → List Str → Str
  | _, [] => []
  | i, p :: ps => (if i > 0 then ":".toList else []) ++ p ++ colonJoin (i + 1) ps

theorem colonJoin_succ (i : Nat) (ps : List Str) (h : ps ≠ []) : colonJoin (i + 1) ps = ':' :: joinWith ':' ps := by
  induction ps generalizing i with
  | nil => exact absurd rfl h
  | cons p ps ih =>
    rw [colonJoin, if_pos (by omega)]
    cases ps with
    | nil => simp [colonJoin, joinWith]
    | cons q ps => rw [ih (i + 1) (by simp)]; simp [joinWith]

theorem colonJoin_zero (ps : List Str) : colonJoin 0 ps = joinWith ':' ps := by
  cases ps with
  | nil => rfl
  | cons p ps =>
    rw [colonJoin]
    cases ps with
    | nil => simp [colonJoin, joinWith]
    | cons q ps => rw [colonJoin_succ _ _ (by simp)]; simp [joinWith]

theorem ipv4Groups_length (a : Arr 4) : (ipv4Groups a).length = 2 := by
  obtain ⟨v, hv⟩ := a
  match v, hv with
  | [x, y, z, w], _ => rfl

theorem readSeparator_some {α : Type} {i : Nat} {inner : Str → Option (α × Str)} {s rest : Str} {x : α}
    (h : readSeparator ':' i inner s = some (x, rest)) : ∃ s', s = (if i > 0 then ":".toList else []) ++ s' ∧ inner s' = some (x, rest) := by
  cases i with
  | zero => rw [readSeparator_zero] at h; exact ⟨s, by simp, h⟩
  | succ i =>
    rw [readSeparator_succ] at h
    obtain ⟨s', rfl, h⟩ := h
    exact ⟨s', by simp, h⟩

theorem readGroupsLoop_sound {limit left i : Nat} {s rest : Str} {gs : List Nat} {b : Bool} (hl : limit = left + i)
    (h : readGroupsLoop limit left i s = (gs, b, rest)) : ∃ ps, Toks ps gs b ∧ gs.length ≤ left ∧ s = colonJoin i ps ++ rest := by
  induction left generalizing i s gs with
  | zero =>
    simp only [readGroupsLoop, Prod.mk.injEq] at h
    obtain ⟨rfl, rfl, rfl⟩ := h
    exact ⟨[], .nil, by simp, by simp [colonJoin]⟩
  | succ left ih =>
    rw [readGroupsLoop] at h
    split at h
    · rename_i a s' hv
      simp only [Prod.mk.injEq] at h
      obtain ⟨rfl, rfl, rfl⟩ := h
      split at hv
      · rename_i hi
        obtain ⟨s1, rfl, hw⟩ := readSeparator_some hv
        rw [readIpv4Addr_iff] at hw
        obtain ⟨t, rfl, h1, -⟩ := hw
        exact ⟨[t], .v4 h1, by rw [ipv4Groups_length]; omega, by simp [colonJoin]⟩
      · cases hv
    · split at h
      · rename_i g s' hv
        obtain ⟨s1, rfl, hw⟩ := readSeparator_some hv
        rw [readNumber_iff] at hw
        obtain ⟨p, rfl, h1, -⟩ := hw
        generalize hr : readGroupsLoop limit left (i + 1) s' = r at h
        obtain ⟨gs', b', rest'⟩ := r
        simp only [Prod.mk.injEq] at h
        obtain ⟨rfl, rfl, rfl⟩ := h
        obtain ⟨ps, h2, h3, rfl⟩ := ih (by omega) hr
        exact ⟨p :: ps, .cons h1 h2, by simp; omega, by simp [colonJoin]⟩
      · simp only [Prod.mk.injEq] at h
        obtain ⟨rfl, rfl, rfl⟩ := h
        exact ⟨[], .nil, by simp, by simp [colonJoin]⟩

/-- What may follow a list of groups. -/
def Follows (rest : Str) : Prop := rest = [] ∨ ∃ r, rest = ':' :: ':' :: r

theorem not_ipv4_group {p X rest : Str} {a : Arr 4} (hp : '.' ∉ p) (hX : X = [] ∨ ∃ r, X = ':' :: r) : readIpv4Addr (p ++ X) ≠ some (a, rest) := by
  intro h
  rw [readIpv4Addr_iff] at h
  obtain ⟨_, h, ⟨p', q, r, t, k, l, m, n, rfl, e1, -⟩, -⟩ := h
  rw [List.append_assoc, List.append_eq_append_iff] at h
  rcases h with ⟨x, h1, h2⟩ | ⟨x, h1, h2⟩
  · -- the number is longer
    rcases hX with rfl | ⟨y, rfl⟩
    · simp at h2
    · cases x with
      | nil => simp at h2
      | cons c x =>
        injection h2 with h2 _
        exact octetText_no e1 colon_stops (by rw [h1, ← h2]; simp)
  · cases x with
    | nil =>
      simp only [List.nil_append] at h2
      rcases hX with rfl | ⟨y, rfl⟩
      · cases h2
      · injection h2 with h2 _; exact absurd h2 (by decide)
    | cons c x =>
      injection h2 with h2 _
      exact hp (by rw [h1, ← h2]; simp)

theorem not_number_nil {radix m max : Nat} {zero : Bool} {X : Str} (hX : StopsAt radix X) : readNumber radix m max zero X = none := by
  cases h : readNumber radix m max zero X with
  | none => rfl
  | some x =>
    obtain ⟨n, rest⟩ := x
    rw [readNumber_iff] at h
    obtain ⟨p, rfl, h1, -⟩ := h
    exfalso
    match p, h1 with
    | [], h1 => exact h1.nonempty rfl
    | c :: p, h1 =>
      have := hX c (p ++ rest) rfl
      exact digitsValue_chars h1.value this (by simp)

theorem colon_stopsAt_hex (r : Str) : StopsAt 16 (':' :: r) := stopsAt_cons colon_stops_hex r

theorem readSeparator_none {α : Type} {i : Nat} {inner : Str → Option (α × Str)} {rest : Str} (hf : Follows rest)
    (h : ∀ X, X = [] ∨ (∃ r, X = ':' :: r) → inner X = none) : readSeparator ':' i inner rest = none := by
  cases i with
  | zero =>
    rw [readSeparator_zero]
    rcases hf with rfl | ⟨r, rfl⟩
    · exact h _ (.inl rfl)
    · exact h _ (.inr ⟨_, rfl⟩)
  | succ i =>
    cases hx : readSeparator ':' (i + 1) inner rest with
    | none => rfl
    | some x =>
      rw [readSeparator_succ] at hx
      obtain ⟨s', rfl, hx⟩ := hx
      rcases hf with hf | ⟨r, hf⟩
      · cases hf
      · injection hf with _ hf
        rw [h s' (.inr ⟨r, hf⟩)] at hx; cases hx

theorem readSeparator_text {α : Type} (i : Nat) (inner : Str → Option (α × Str)) (s : Str) :
    readSeparator ':' i inner ((if i > 0 then ":".toList else []) ++ s) = inner s := by
  cases i with
  | zero => simp [readSeparator]
  | succ i => simp [readSeparator, readGivenChar]

theorem colonJoin_starts (i : Nat) {ps : List Str} {rest : Str} (hf : Follows rest) :
    colonJoin (i + 1) ps ++ rest = [] ∨ ∃ r, colonJoin (i + 1) ps ++ rest = ':' :: r := by
  cases ps with
  | nil =>
    rcases hf with rfl | ⟨r, rfl⟩
    · left; rfl
    · right; exact ⟨_, rfl⟩
  | cons p ps => right; rw [colonJoin_succ _ _ (by simp)]; exact ⟨_, rfl⟩

theorem starts_stops {radix : Nat} (hc : toDigit radix ':' = none) {X : Str} (h : X = [] ∨ ∃ r, X = ':' :: r) : StopsAt radix X := by
  rcases h with rfl | ⟨r, rfl⟩
  · exact stopsAt_nil _
  · exact stopsAt_cons hc _

theorem readGroupsLoop_complete {ps : List Str} {gs : List Nat} {b : Bool} (ht : Toks ps gs b) {limit left i : Nat} {rest : Str}
    (hl : limit = left + i) (hle : gs.length ≤ left) (hf : Follows rest) :
    readGroupsLoop limit left i (colonJoin i ps ++ rest) = (gs, b, rest) := by
  have nov4 : ∀ X, X = [] ∨ (∃ r, X = ':' :: r) → readIpv4Addr X = none := by
    intro X hX
    cases h : readIpv4Addr X with
    | none => rfl
    | some x => exact absurd h (not_ipv4_group (p := []) (by simp) hX)
  induction ht generalizing left i with
  | nil =>
    cases left with
    | zero => rfl
    | succ left =>
      rw [colonJoin, List.nil_append, readGroupsLoop]
      have h1 : (if i < limit - 1 then readSeparator ':' i readIpv4Addr rest else none) = none := by
        split
        · exact readSeparator_none hf nov4
        · rfl
      have h2 : readSeparator ':' i (readNumber 16 4 65535 true) rest = none :=
        readSeparator_none hf fun X hX => not_number_nil (starts_stops colon_stops_hex hX)
      rw [h1, h2]
  | v4 h =>
    rename_i t a
    rw [ipv4Groups_length] at hle
    match left, hle with
    | left + 2, _ =>
      rw [readGroupsLoop, if_pos (by omega), colonJoin, colonJoin, List.append_nil, List.append_assoc, readSeparator_text]
      have hs : StopsAt 10 rest := by
        rcases hf with rfl | ⟨r, rfl⟩
        · exact stopsAt_nil _
        · exact stopsAt_cons colon_stops _
      rw [readIpv4Addr_iff.2 ⟨t, rfl, h, hs⟩]
  | cons hp _ ih =>
    rename_i p g ps gs b ht
    match left, hle with
    | left + 1, hle =>
      have hX := colonJoin_starts i (ps := ps) hf
      have h1 : (if i < limit - 1 then readSeparator ':' i readIpv4Addr (colonJoin i (p :: ps) ++ rest) else none) = none := by
        split
        · rw [colonJoin, List.append_assoc, List.append_assoc, readSeparator_text]
          cases h : readIpv4Addr (p ++ (colonJoin (i + 1) ps ++ rest)) with
          | none => rfl
          | some x => exact absurd h (not_ipv4_group (groupText_no hp dot_stops_hex) hX)
        · rfl
      have h2 : readSeparator ':' i (readNumber 16 4 65535 true) (colonJoin i (p :: ps) ++ rest) = some (g, colonJoin (i + 1) ps ++ rest) := by
        rw [colonJoin, List.append_assoc, List.append_assoc, readSeparator_text]
        exact readNumber_iff.2 ⟨p, rfl, hp, starts_stops colon_stops_hex hX⟩
      rw [readGroupsLoop, h1, h2]
      simp only
      rw [ih (by omega) (by simp at hle; omega)]

/-! ## IPv6 -/

theorem groupOctets_eq (l : List Nat) : groupOctets l = unsegments l := by
  induction l with
  | nil => rfl
  | cons g l ih => rw [groupOctets, unsegments, ih]

theorem groupOctets_length (l : List Nat) : (groupOctets l).length = 2 * l.length := by rw [groupOctets_eq, unsegments_length]

theorem readIpv6Addr_iff {s : Str} {a : Arr 16} :
    readIpv6Addr s = some (a, []) ↔
      (∃ ps gs b, Toks ps gs b ∧ gs.length = 8 ∧ s = joinWith ':' ps ∧ a.val = groupOctets gs) ∨
      (∃ ps gs qs hs b, Toks ps gs false ∧ Toks qs hs b ∧ gs.length + hs.length ≤ 7 ∧ s = joinWith ':' ps ++ ':' :: ':' :: joinWith ':' qs ∧
        a.val = groupOctets (gs ++ List.replicate (8 - gs.length - hs.length) 0 ++ hs)) := by
  constructor
  · intro h
    unfold readIpv6Addr at h
    generalize hh : readGroupsLoop 8 8 0 s = r at h
    obtain ⟨gs, b, s1⟩ := r
    obtain ⟨ps, h1, h2, h3⟩ := readGroupsLoop_sound (by omega) hh
    rw [colonJoin_zero] at h3
    simp only at h
    split at h
    · rename_i h8
      split at h
      · simp only [Option.some.injEq, Prod.mk.injEq] at h
        obtain ⟨rfl, rfl⟩ := h
        exact .inl ⟨ps, gs, b, h1, h8, by simpa using h3, rfl⟩
      · cases h
    · split at h
      · cases h
      · rename_i h8 hb
        simp only [Bool.not_eq_true] at hb
        subst hb
        simp only [Option.bind_eq_bind, Option.bind_eq_some_iff] at h
        obtain ⟨s2, e1, s3, e2, h⟩ := h
        have hs1 : s1 = ':' :: ':' :: s3 := by
          match s1, e1 with
          | x :: t, e1 =>
            simp only [readGivenChar] at e1
            split at e1
            · rename_i hx
              injection e1 with e1
              subst e1 hx
              match t, e2 with
              | y :: t, e2 =>
                simp only [readGivenChar] at e2
                split at e2
                · rename_i hy
                  injection e2 with e2
                  subst e2 hy
                  rfl
                · cases e2
            · cases e1
        generalize hh2 : readGroupsLoop (8 - (gs.length + 1)) (8 - (gs.length + 1)) 0 s3 = r at h
        obtain ⟨hs, b, s4⟩ := r
        obtain ⟨qs, g1, g2, g3⟩ := readGroupsLoop_sound (by omega) hh2
        rw [colonJoin_zero] at g3
        simp only at h
        split at h
        · simp only [Option.some.injEq, Prod.mk.injEq] at h
          obtain ⟨rfl, rfl⟩ := h
          refine .inr ⟨ps, gs, qs, hs, b, h1, g1, by omega, ?_, rfl⟩
          rw [h3, hs1, g3]; simp
        · cases h
  · rintro (⟨ps, gs, b, h1, h8, rfl, ha⟩ | ⟨ps, gs, qs, hs, b, h1, h2, h7, rfl, ha⟩)
    · have := readGroupsLoop_complete h1 (limit := 8) (left := 8) (i := 0) rfl (by omega) (.inl rfl)
      rw [colonJoin_zero, List.append_nil] at this
      rw [readIpv6Addr, this]
      simp only
      rw [if_pos h8, dif_pos (by rw [groupOctets_length]; omega)]
      simp only [Option.some.injEq, Prod.mk.injEq, and_true]
      exact Subtype.ext ha.symm
    · have e1 := readGroupsLoop_complete h1 (limit := 8) (left := 8) (i := 0) (rest := ':' :: ':' :: joinWith ':' qs) rfl (by omega) (.inr ⟨_, rfl⟩)
      have e2 := readGroupsLoop_complete h2 (limit := 8 - (gs.length + 1)) (left := 8 - (gs.length + 1)) (i := 0) (rest := []) rfl (by omega) (.inl rfl)
      rw [colonJoin_zero] at e1 e2
      rw [List.append_nil] at e2
      rw [readIpv6Addr, e1]
      simp only
      rw [if_neg (by omega)]
      simp only [Bool.false_eq_true, if_false, readGivenChar, if_true, Option.bind_eq_bind, Option.bind_some, e2]
      rw [dif_pos (by rw [groupOctets_length]; simp; omega)]
      simp only [Option.some.injEq, Prod.mk.injEq, and_true]
      exact Subtype.ext ha.symm

theorem readGroup_iff {t : Str} {b : Bytes} : readGroup t = some b ↔ ∃ g, GroupText t g ∧ b = [UInt8.ofNat (g / 256), UInt8.ofNat g] := by
  have hmod : ∀ n, UInt8.ofNat (n % 256) = UInt8.ofNat n := by
    intro n
    apply UInt8.toNat_inj.1
    simp
  unfold readGroup
  simp only [groupText_iff]
  cases numeralValue 16 t with
  | none => simp
  | some n =>
    simp only [Option.some.injEq]
    constructor
    · intro h
      split at h
      · rename_i hl
        injection h with h
        exact ⟨n, ⟨rfl, hl⟩, by rw [← h, hmod]⟩
      · cases h
    · rintro ⟨g, ⟨rfl, hl⟩, rfl⟩
      rw [if_pos hl, hmod]

theorem groupOctets_ipv4 (a : Arr 4) : groupOctets (ipv4Groups a) = a.val := by
  obtain ⟨v, hv⟩ := a
  match v, hv with
  | [x, y, z, w], _ =>
    have hx := x.toNat_lt
    have hy := y.toNat_lt
    have hz := z.toNat_lt
    have hw := w.toNat_lt
    have hi : ∀ {p q : UInt8}, UInt8.ofNat ((p.toNat * 256 + q.toNat) / 256) = p := by
      intro p q
      have := q.toNat_lt
      rw [show (p.toNat * 256 + q.toNat) / 256 = p.toNat by omega]
      simp
    have lo : ∀ {p q : UInt8}, UInt8.ofNat (p.toNat * 256 + q.toNat) = q := by
      intro p q
      apply UInt8.toNat_inj.1
      have := q.toNat_lt
      simp
    simp only [ipv4Groups, groupOctets, hi, lo]

theorem readGroups_toks {dotted : Bool} {ps : List Str} {bs : Bytes} :
    (readGroups dotted ps = some bs ∧ ∀ t ∈ ps, '.' ∈ t → PlainOctets t) ↔ ∃ gs b, Toks ps gs b ∧ (b = true → dotted = true) ∧ bs = groupOctets gs := by
  constructor
  · rintro ⟨h, hp⟩
    induction ps generalizing bs with
    | nil =>
      injection h with h
      exact ⟨[], false, .nil, fun h => (by cases h), h.symm⟩
    | cons t ts ih =>
      cases ts with
      | nil =>
        simp only [readGroups] at h
        split at h
        · rename_i hd
          simp only [Bool.and_eq_true, List.contains_iff_mem] at hd
          rw [Option.map_eq_some_iff] at h
          obtain ⟨a, h1, rfl⟩ := h
          exact ⟨ipv4Groups a, true, .v4 (ipv4Text_iff.2 ⟨h1, hp t (by simp) hd.2⟩), fun _ => hd.1, (groupOctets_ipv4 a).symm⟩
        · rw [readGroup_iff] at h
          obtain ⟨g, h1, rfl⟩ := h
          exact ⟨[g], false, .cons h1 .nil, fun h => (by cases h), rfl⟩
      | cons u us =>
        rw [readGroups] at h
        · split at h
          · rename_i x y h1 h2
            injection h with h
            obtain ⟨gs, b, h3, h4, rfl⟩ := ih h2 (fun t ht => hp t (by simp [ht]))
            rw [readGroup_iff] at h1
            obtain ⟨g, h5, rfl⟩ := h1
            exact ⟨g :: gs, b, .cons h5 h3, h4, h.symm⟩
          · cases h
        · simp
  · rintro ⟨gs, b, h, hb, rfl⟩
    induction h with
    | nil => exact ⟨rfl, by simp⟩
    | v4 h =>
      obtain ⟨h1, h2⟩ := ipv4Text_iff.1 h
      constructor
      · simp only [readGroups, hb rfl, Bool.true_and]
        rw [if_pos (by simpa using ipv4Text_dot h), h1, Option.map_some, groupOctets_ipv4]
      · intro t ht
        simp only [List.mem_singleton] at ht
        subst ht
        exact fun _ => h2
    | cons hp ht ih =>
      rename_i p g ps gs b
      obtain ⟨h1, h2⟩ := ih hb
      have hdot := groupText_no hp dot_stops_hex
      constructor
      · cases ps with
        | nil =>
          simp only [readGroups]
          rw [if_neg (by simp [hdot])]
          cases ht
          exact readGroup_iff.2 ⟨g, hp, rfl⟩
        | cons q ps =>
          rw [readGroups]
          · rw [readGroup_iff.2 ⟨g, hp, rfl⟩, h1]; rfl
          · simp
      · intro t ht
        rcases List.mem_cons.1 ht with rfl | ht
        · exact fun h => absurd h hdot
        · exact h2 t ht

theorem readHalf_toks {dotted : Bool} {s : Str} {bs : Bytes} :
    (readHalf dotted s = some bs ∧ ∀ t ∈ pieces ':' s, '.' ∈ t → PlainOctets t) ↔
      ∃ ps gs b, Toks ps gs b ∧ (b = true → dotted = true) ∧ s = joinWith ':' ps ∧ bs = groupOctets gs := by
  constructor
  · rintro ⟨h, hp⟩
    unfold readHalf at h
    split at h
    · rename_i hs
      injection h with h
      exact ⟨[], [], false, .nil, fun h => (by cases h), hs, h.symm⟩
    · obtain ⟨gs, b, h1, h2, h3⟩ := readGroups_toks.1 ⟨h, hp⟩
      exact ⟨_, gs, b, h1, h2, by rw [pieces_eq, joinWith_splitOn], h3⟩
  · rintro ⟨ps, gs, b, h, hb, rfl, rfl⟩
    have ht := toks_token h
    by_cases hne : ps = []
    · subst hne
      cases h
      refine ⟨rfl, ?_⟩
      intro t ht hd
      simp [joinWith, pieces] at ht
      subst ht
      cases hd
    · have hj : joinWith ':' ps ≠ [] := by
        rw [Ne, joinWith_eq_nil (fun t h => (ht t h).1)]
        exact hne
      rw [readHalf, if_neg hj, pieces_eq, splitOn_joinWith hne (fun t h => (ht t h).2)]
      exact readGroups_toks.2 ⟨gs, b, h, hb, rfl⟩

theorem splitGap_eq {s l r : Str} (h : splitGap s = some (l, r)) : s = l ++ ':' :: ':' :: r := by
  induction s using splitGap.induct generalizing l r with
  | case1 => cases h
  | case2 after =>
    simp only [splitGap, Option.some.injEq, Prod.mk.injEq] at h
    obtain ⟨rfl, rfl⟩ := h
    rfl
  | case3 c rest hx l' r' he ih =>
    rw [splitGap, he] at h
    · simp only [Option.some.injEq, Prod.mk.injEq] at h
      obtain ⟨rfl, rfl⟩ := h
      rw [ih he]; rfl
    · exact hx
  | case4 c rest hx he ih =>
    rw [splitGap, he] at h
    · cases h
    · exact hx

theorem pieces_gap (l r : Str) : pieces ':' (l ++ ':' :: ':' :: r) = pieces ':' l ++ [] :: pieces ':' r := by
  rw [pieces_eq, pieces_eq, pieces_eq]
  have key : ∀ (l t : Str), splitOn ':' (l ++ ':' :: t) = splitOn ':' l ++ splitOn ':' t := by
    intro l t
    induction l with
    | nil => simp [splitOn]
    | cons c l ih =>
      rw [List.cons_append, splitOn, splitOn]
      split
      · rw [ih]; rfl
      · rw [ih]
        cases hs : splitOn ':' l with
        | nil => exact absurd hs (splitOn_ne_nil _ _)
        | cons p ps => rfl
  rw [key]
  simp [splitOn]

/-- The texts of IPv6 addresses are those that have the meaning, without superfluous zeros in an embedded IPv4 address. -/
theorem readIpv6Addr_meaning {s : Str} {a : Arr 16} :
    readIpv6Addr s = some (a, []) ↔ readIpv6 s = some a ∧ ∀ t ∈ pieces ':' s, '.' ∈ t → PlainOctets t := by
  rw [readIpv6Addr_iff]
  have gap : ∀ {ps : List Str} {gs : List Nat} {b : Bool} (s : Str), Toks ps gs b →
      splitGap (joinWith ':' ps ++ s) = if ps = [] then splitGap s else (splitGap s).map (fun e => (joinWith ':' ps ++ e.1, e.2)) := by
    intro ps gs b s h
    by_cases hne : ps = []
    · subst hne; rfl
    · rw [if_neg hne, splitGap_join s hne (toks_token h)]
  have nogap : ∀ {ps : List Str} {gs : List Nat} {b : Bool}, Toks ps gs b → splitGap (joinWith ':' ps) = none := by
    intro ps gs b h
    have := gap [] h
    rw [List.append_nil] at this
    rw [this]
    split <;> rfl
  constructor
  · rintro (⟨ps, gs, b, h1, h8, rfl, ha⟩ | ⟨ps, gs, qs, hs, b, h1, h2, h7, rfl, ha⟩)
    · obtain ⟨h3, h4⟩ := readHalf_toks (dotted := true).2 ⟨ps, gs, b, h1, fun _ => rfl, rfl, rfl⟩
      refine ⟨?_, h4⟩
      rw [readIpv6, nogap h1]
      simp only [h3]
      rw [dif_pos (by rw [groupOctets_length]; omega)]
      exact congrArg some (Subtype.ext ha.symm)
    · obtain ⟨h3, h4⟩ := readHalf_toks (dotted := false).2 ⟨ps, gs, false, h1, fun h => (by cases h), rfl, rfl⟩
      obtain ⟨h5, h6⟩ := readHalf_toks (dotted := true).2 ⟨qs, hs, b, h2, fun _ => rfl, rfl, rfl⟩
      have hg : splitGap (joinWith ':' ps ++ ':' :: ':' :: joinWith ':' qs) = some (joinWith ':' ps, joinWith ':' qs) := by
        rw [gap _ h1]
        have h0 : splitGap (':' :: ':' :: joinWith ':' qs) = some ([], joinWith ':' qs) := rfl
        rw [h0]
        split
        · rename_i he; subst he; rfl
        · simp
      constructor
      · rw [readIpv6, hg]
        simp only [h3, h5]
        rw [dif_pos (by rw [groupOctets_length, groupOctets_length]; omega)]
        congr 1
        apply Subtype.ext
        rw [ha]
        simp only [groupOctets_length]
        rw [groupOctets_eq, groupOctets_eq, groupOctets_eq, unsegments_append, unsegments_append, unsegments_zeros]
        congr 3
        omega
      · intro t ht
        rw [pieces_gap] at ht
        rcases List.mem_append.1 ht with ht | ht
        · exact h4 t ht
        · rcases List.mem_cons.1 ht with rfl | ht
          · intro h; cases h
          · exact h6 t ht
  · rintro ⟨h, hp⟩
    unfold readIpv6 at h
    split at h
    · split at h
      · rename_i bs hb
        split at h
        · rename_i hl
          injection h with h
          obtain ⟨ps, gs, b, h1, -, h2, h3⟩ := readHalf_toks.1 ⟨hb, hp⟩
          refine .inl ⟨ps, gs, b, h1, ?_, h2, ?_⟩
          · rw [h3, groupOctets_length] at hl; omega
          · rw [← h, ← h3]
        · cases h
      · cases h
    · rename_i l r hg
      have hs := splitGap_eq hg
      subst hs
      rw [pieces_gap] at hp
      split at h
      · rename_i x y h1 h2
        split at h
        · rename_i hl
          injection h with h
          obtain ⟨ps, gs, b, a1, a2, rfl, rfl⟩ := readHalf_toks.1 ⟨h1, fun t ht => hp t (by simp [ht])⟩
          obtain ⟨qs, hs, b', b1, b2, rfl, rfl⟩ := readHalf_toks.1 ⟨h2, fun t ht => hp t (by simp [ht])⟩
          have hb : b = false := by
            cases b with
            | false => rfl
            | true => exact absurd (a2 rfl) (by decide)
          subst hb
          rw [groupOctets_length, groupOctets_length] at hl
          refine .inr ⟨ps, gs, qs, hs, b', a1, b1, by omega, rfl, ?_⟩
          rw [← h]
          simp only [groupOctets_length]
          rw [groupOctets_eq, groupOctets_eq, groupOctets_eq, unsegments_append, unsegments_append, unsegments_zeros]
          congr 3
          omega
        · cases h
      · cases h

/-! ## Both families -/

theorem readIpv6Addr_no_ipv4 {s : Str} {a : Arr 4} {rest : Str} {b : Arr 16} (h4 : readIpv4Addr s = some (a, rest)) :
    readIpv6Addr s ≠ some (b, []) := by
  intro h6
  rw [readIpv4Addr_iff] at h4
  obtain ⟨t, rfl, h4, -⟩ := h4
  obtain ⟨p, q, r, u, k, l, m, n, rfl, e1, -⟩ := h4
  have first : ∀ {ps : List Str} {gs : List Nat} {c : Bool} (X : Str), Toks ps gs c → (X = [] ∨ ∃ y, X = ':' :: y) → (c = true → 2 < gs.length) →
      (ps = [] → X ≠ []) → joinWith ':' ps ++ X ≠ p ++ '.' :: (q ++ '.' :: (r ++ '.' :: u)) ++ rest := by
    intro ps gs c X ht hX hc hne he
    cases ht with
    | nil =>
      simp only [joinWith, List.nil_append] at he
      rcases hX with rfl | ⟨y, rfl⟩
      · exact hne rfl rfl
      · match p, e1, he with
        | [], e1, _ => exact e1.nonempty rfl
        | x :: p, e1, he =>
          simp only [List.cons_append, List.cons.injEq] at he
          exact octetText_no e1 colon_stops (by rw [he.1]; simp)
    | v4 => have := hc rfl; rw [ipv4Groups_length] at this; omega
    | cons hp ht =>
      rename_i p' g ps' gs'
      have hj : ∃ Y, joinWith ':' (p' :: ps') ++ X = p' ++ Y ∧ (Y = [] ∨ ∃ y, Y = ':' :: y) := by
        cases ps' with
        | nil => exact ⟨X, rfl, hX⟩
        | cons z zs => exact ⟨':' :: (joinWith ':' (z :: zs) ++ X), by simp [joinWith], .inr ⟨_, rfl⟩⟩
      obtain ⟨Y, hY, hY'⟩ := hj
      rw [hY] at he
      have hdot := groupText_no hp dot_stops_hex
      rw [List.append_assoc, List.append_eq_append_iff] at he
      rcases he with ⟨x, h1, h2⟩ | ⟨x, h1, h2⟩
      · rcases hY' with rfl | ⟨y, rfl⟩
        · simp at h2
        · cases x with
          | nil => simp at h2
          | cons z x =>
            injection h2 with h2 _
            exact octetText_no e1 colon_stops (by rw [h1, ← h2]; simp)
      · cases x with
        | nil =>
          simp only [List.nil_append] at h2
          rcases hY' with rfl | ⟨y, rfl⟩
          · cases h2
          · injection h2 with h2 _; exact absurd h2 (by decide)
        | cons z x =>
          injection h2 with h2 _
          exact hdot (by rw [h1, ← h2]; simp)
  rcases readIpv6Addr_iff.1 h6 with ⟨ps, gs, c, h1, h8, h2, -⟩ | ⟨ps, gs, qs, hs, c, h1, -, -, h2, -⟩
  · refine first [] h1 (.inl rfl) (fun _ => by omega) ?_ (by rw [List.append_nil]; exact h2.symm)
    rintro rfl
    cases h1
    simp at h8
  · exact first _ h1 (.inr ⟨_, rfl⟩) (fun h => (by cases h)) (fun _ => by simp) h2.symm

theorem ipv4Text_parse {s : Str} {a : Arr 4} : readIpv4Addr s = some (a, []) ↔ Ipv4Text s a := by
  rw [readIpv4Addr_iff]
  constructor
  · rintro ⟨t, rfl, h, -⟩; simpa using h
  · exact fun h => ⟨s, by simp, h, stopsAt_nil _⟩

/-- The parser accepts exactly the literals and reads them as what they mean. -/
theorem parseIpAddr_iff {s : Str} {a : IpAddr} : parseIpAddr s = some a ↔ Literal s a := by
  unfold parseIpAddr readIpAddr
  constructor
  · intro h
    split at h
    · rename_i x hx
      injection h with h
      subst h
      split at hx
      · rename_i b s' h4
        simp only [Option.some.injEq, Prod.mk.injEq] at hx
        obtain ⟨rfl, rfl⟩ := hx
        obtain ⟨h1, h2⟩ := ipv4Text_iff.1 (ipv4Text_parse.1 h4)
        exact .v4 h1 h2
      · split at hx
        · rename_i b s' h6
          simp only [Option.some.injEq, Prod.mk.injEq] at hx
          obtain ⟨rfl, rfl⟩ := hx
          obtain ⟨h1, h2⟩ := readIpv6Addr_meaning.1 h6
          exact .v6 h1 h2
        · cases hx
    · cases h
  · intro h
    cases h with
    | v4 h1 h2 => rw [ipv4Text_parse.2 (ipv4Text_iff.2 ⟨h1, h2⟩)]
    | v6 h1 h2 =>
      have h6 := readIpv6Addr_meaning.2 ⟨h1, h2⟩
      cases h4 : readIpv4Addr s with
      | some x => exact absurd h6 (readIpv6Addr_no_ipv4 h4)
      | none => simp only [h6]

end Letmein
