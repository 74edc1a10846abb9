import Verif.Lemmas.ConfText

/-!
# Lemmas: numbers, identifiers, keys and durations in configuration values
-/

namespace Letmein

open Spec

theorem R.bind_eq_ok {α β : Type} {x : R α} {f : α → R β} {b : β} : (x >>= f) = .ok b ↔ ∃ a, x = .ok a ∧ f a = .ok b := by
  cases x <;> simp

theorem R.bind_not_panic {α β : Type} {x : R α} {f : α → R β} (hx : x ≠ .panic) (hf : ∀ a, x = .ok a → f a ≠ .panic) : (x >>= f) ≠ .panic := by
  cases x with
  | ok a => exact hf a rfl
  | err => simp
  | panic => exact absurd rfl hx

theorem rensure_eq_ok {b : Bool} {u : Unit} : rensure b = .ok u ↔ b = true := by cases b <;> simp [rensure]
theorem rensure_not_panic (b : Bool) : rensure b ≠ .panic := by cases b <;> simp [rensure]
theorem rassert_eq_ok {b : Bool} {u : Unit} : rassert b = .ok u ↔ b = true := by cases b <;> simp [rassert]

/-! ### Numbers -/

theorem number_not_0x {h : Str} {n : Nat} : ¬ Number 10 ('0' :: 'x' :: h) n := by
  rintro (hn | ⟨t, ht, -⟩)
  · rw [numeral_iff (by omega)] at hn
    simp [digitsValue, toDigit] at hn
  · simp at ht

theorem stripPrefix_0x (t : Str) :
    (∃ h, t = '0' :: 'x' :: h ∧ stripPrefix "0x".toList t = some h) ∨ ((¬ ∃ h, t = '0' :: 'x' :: h) ∧ stripPrefix "0x".toList t = none) := by
  have e : "0x".toList = ['0', 'x'] := by decide
  rw [e]
  unfold stripPrefix
  match t with
  | [] => right; simp
  | [a] => right; simp
  | a :: b :: h =>
    by_cases h1 : a = '0' ∧ b = 'x'
    · left; obtain ⟨rfl, rfl⟩ := h1; exact ⟨h, rfl, by simp⟩
    · right
      constructor
      · rintro ⟨h', e⟩; simp at e; exact h1 ⟨e.1, e.2.1⟩
      · rw [if_neg]
        simp only [List.isPrefixOf_iff_prefix, List.cons_prefix_cons, List.nil_prefix, and_true]
        exact fun e => h1 ⟨e.1.symm, e.2.symm⟩

theorem parseUInt_iff {max n : Nat} {s : Str} : parseUInt max s = .ok n ↔ NatText s n ∧ n ≤ max := by
  unfold NatText parseUInt
  rw [exists_trimmed (P := fun t => Number 10 t n ∨ ∃ h, t = '0' :: 'x' :: h ∧ Number 16 h n)]
  simp only
  generalize trim s = t
  rcases stripPrefix_0x t with ⟨h, rfl, e⟩ | ⟨h, e⟩
  · rw [e]
    simp only
    rw [fromStrRadix_iff (by omega) (by omega)]
    constructor
    · rintro ⟨h1, h2⟩; exact ⟨.inr ⟨h, rfl, h1⟩, h2⟩
    · rintro ⟨h1 | ⟨h', h1, h2⟩, h3⟩
      · exact absurd h1 number_not_0x
      · simp at h1; subst h1; exact ⟨h2, h3⟩
  · rw [e]
    simp only
    rw [fromStrRadix_iff (by omega) (by omega)]
    constructor
    · rintro ⟨h1, h2⟩; exact ⟨.inl h1, h2⟩
    · rintro ⟨h1 | ⟨h', h1, h2⟩, h3⟩
      · exact ⟨h1, h3⟩
      · exact absurd ⟨h', h1⟩ h

theorem parseUInt_not_panic {max : Nat} {s : Str} : parseUInt max s ≠ .panic := by
  unfold parseUInt; simp only; split <;> exact fromStrRadix_not_panic

theorem parseU32_iff {s : Str} {n : Nat} : parseU32 s = .ok n ↔ NatText s n ∧ n < 2 ^ 32 := by
  unfold parseU32; rw [parseUInt_iff]
  constructor <;> rintro ⟨h1, h2⟩ <;> exact ⟨h1, by omega⟩

theorem parseU16_iff {s : Str} {p : UInt16} : parseU16 s = .ok p ↔ NatText s p.toNat := by
  unfold parseU16
  rw [R.bind_eq_ok]
  constructor
  · rintro ⟨n, h1, h2⟩
    rw [parseUInt_iff] at h1
    injection h2 with h2
    subst h2
    have : (UInt16.ofNat n).toNat = n := by
      rw [UInt16.toNat_ofNat']; exact Nat.mod_eq_of_lt (by omega)
    rw [this]; exact h1.1
  · intro h
    refine ⟨p.toNat, parseUInt_iff.2 ⟨h, ?_⟩, ?_⟩
    · have := p.toNat_lt; omega
    · simp

theorem parseU16_not_panic (s : Str) : parseU16 s ≠ .panic :=
  R.bind_not_panic parseUInt_not_panic (by simp)

theorem parseId_iff {s : Str} {x : UInt32} : parseId s = .ok x ↔ IdText s x := by
  unfold parseId IdText
  rw [R.bind_eq_ok, exists_trimmed (P := fun t => Number 16 t x.toNat)]
  constructor
  · rintro ⟨n, h1, h2⟩
    rw [fromStrRadix_iff (by omega) (by omega)] at h1
    injection h2 with h2
    subst h2
    have : (UInt32.ofNat n).toNat = n := by
      rw [UInt32.toNat_ofNat']; exact Nat.mod_eq_of_lt (by omega)
    rw [this]; exact h1.1
  · intro h
    refine ⟨x.toNat, (fromStrRadix_iff (by omega) (by omega)).2 ⟨h, ?_⟩, ?_⟩
    · have := x.toNat_lt; omega
    · simp

theorem parseId_not_panic (s : Str) : parseId s ≠ .panic :=
  R.bind_not_panic fromStrRadix_not_panic (by simp)

theorem idText_unique {s : Str} {x y : UInt32} (hx : IdText s x) (hy : IdText s y) : x = y := by
  have h1 := parseId_iff.2 hx
  rw [parseId_iff.2 hy] at h1
  injection h1 with h1
  exact h1.symm

theorem natText_unique {s : Str} {x y : Nat} (hx : NatText s x) (hy : NatText s y) : x = y := by
  have h1 := parseUInt_iff.2 ⟨hx, Nat.le_max_left x y⟩
  rw [parseUInt_iff.2 ⟨hy, Nat.le_max_right x y⟩] at h1
  injection h1 with h1
  exact h1.symm

/-! ### Numbers without plus sign -/

theorem digitsValue_all {radix : Nat} {acc n : Nat} {s : Str} (h : digitsValue radix acc s = some n) : ∀ c ∈ s, ∃ d, toDigit radix c = some d := by
  induction s generalizing acc with
  | nil => simp
  | cons c s ih =>
    simp only [digitsValue] at h
    cases hd : toDigit radix c with
    | none => rw [hd] at h; cases h
    | some d =>
      rw [hd] at h
      intro c' hc'
      rcases List.mem_cons.1 hc' with rfl | hc'
      · exact ⟨d, hd⟩
      · exact ih h c' hc'

theorem isAsciiDigit_of {c : Char} {d : Nat} (h : toDigit 10 c = some d) : isAsciiDigit c = true := by
  unfold toDigit at h
  unfold isAsciiDigit
  simp only at h
  generalize c.toNat = n at *
  by_cases h1 : 48 ≤ n ∧ n ≤ 57
  · simp [h1]
  · rw [if_neg h1] at h
    by_cases h2 : 97 ≤ n ∧ n ≤ 122
    · rw [if_pos h2] at h; simp only at h; rw [if_neg (by omega)] at h; cases h
    · rw [if_neg h2] at h
      by_cases h3 : 65 ≤ n ∧ n ≤ 90
      · rw [if_pos h3] at h; simp only at h; rw [if_neg (by omega)] at h; cases h
      · rw [if_neg h3] at h; cases h

theorem isAsciiHexdigit_of {c : Char} {d : Nat} (h : toDigit 16 c = some d) : isAsciiHexdigit c = true := by
  unfold toDigit at h
  unfold isAsciiHexdigit isAsciiDigit
  simp only at h
  generalize c.toNat = n at *
  by_cases h1 : 48 ≤ n ∧ n ≤ 57
  · simp [h1]
  · rw [if_neg h1] at h
    by_cases h2 : 97 ≤ n ∧ n ≤ 122
    · rw [if_pos h2] at h; simp only at h
      split at h
      · simp; omega
      · cases h
    · rw [if_neg h2] at h
      by_cases h3 : 65 ≤ n ∧ n ≤ 90
      · rw [if_pos h3] at h; simp only at h
        split at h
        · simp; omega
        · cases h
      · rw [if_neg h3] at h; cases h

theorem plainNatText_iff {max n : Nat} {s : Str} :
    (isNumber s = true ∧ parseUInt max s = .ok n) ↔ PlainNatText s n ∧ n ≤ max := by
  rw [parseUInt_iff]
  unfold NatText PlainNatText isNumber
  rw [exists_trimmed (P := fun t => Number 10 t n ∨ ∃ h, t = '0' :: 'x' :: h ∧ Number 16 h n),
    exists_trimmed (P := fun t => Numeral 10 t n ∨ ∃ h, t = '0' :: 'x' :: h ∧ Numeral 16 h n)]
  simp only
  generalize trim s = t
  rcases stripPrefix_0x t with ⟨h, rfl, e⟩ | ⟨h, e⟩
  · rw [e]
    simp only
    constructor
    · rintro ⟨h0, h1 | ⟨h', h1, h2 | ⟨u, rfl, h2⟩⟩, h3⟩
      · exact absurd h1 number_not_0x
      · exact ⟨.inr ⟨h', h1, h2⟩, h3⟩
      · simp at h1; subst h1
        simp [isAsciiHexdigit, isAsciiDigit] at h0
    · rintro ⟨h1 | ⟨h', h1, h2⟩, h3⟩
      · exact absurd (.inl h1) number_not_0x
      · simp at h1; subst h1
        refine ⟨?_, .inr ⟨h, rfl, .inl h2⟩, h3⟩
        rw [List.all_eq_true]
        intro c hc
        obtain ⟨d, hd⟩ := digitsValue_all ((numeral_iff (by omega)).1 h2).2 c hc
        exact isAsciiHexdigit_of hd
  · rw [e]
    simp only
    constructor
    · rintro ⟨h0, (h1 | ⟨u, rfl, h1⟩) | ⟨h', h1, h2⟩, h3⟩
      · exact ⟨.inl h1, h3⟩
      · simp [isAsciiDigit] at h0
      · exact absurd ⟨h', h1⟩ h
    · rintro ⟨h1 | ⟨h', h1, h2⟩, h3⟩
      · refine ⟨?_, .inl (.inl h1), h3⟩
        rw [List.all_eq_true]
        intro c hc
        obtain ⟨d, hd⟩ := digitsValue_all ((numeral_iff (by omega)).1 h1).2 c hc
        exact isAsciiDigit_of hd
      · exact absurd ⟨h', h1⟩ h

theorem plainNatText_natText {s : Str} {n : Nat} (h : PlainNatText s n) : NatText s n := by
  have := plainNatText_iff (max := n).2 ⟨h, Nat.le_refl n⟩
  exact (parseUInt_iff.1 this.2).1

/-! ### Durations -/

theorem parseDuration_iff {f64 : F64Secs} {s : Str} {d : Duration} : parseDuration f64 s = .ok d ↔ DurationText f64 s d := by
  unfold parseDuration DurationText
  rw [exists_trimmed (P := fun t => f64 t = some d)]
  cases h : parseU32 s with
  | ok n =>
    simp only [R.ok.injEq]
    have hn := parseU32_iff.1 h
    constructor
    · rintro rfl; exact .inl ⟨n, hn.1, hn.2, rfl⟩
    · rintro (⟨m, h1, h2, rfl⟩ | ⟨h1, -⟩)
      · rw [natText_unique h1 hn.1]
      · exact absurd ⟨n, hn⟩ h1
  | _ =>
    have hn : ¬ ∃ n, NatText s n ∧ n < 2 ^ 32 := by
      rintro ⟨n, hn⟩
      rw [parseU32_iff.2 hn] at h; cases h
    have : (∃ n, NatText s n ∧ n < 2 ^ 32 ∧ d = n * 1000000000) ↔ False := by
      constructor
      · rintro ⟨n, h1, h2, -⟩; exact hn ⟨n, h1, h2⟩
      · exact False.elim
    simp only [this, false_or, hn, not_false_eq_true, true_and]
    cases f64 (trim s) <;> simp

theorem parseDuration_not_panic (f64 : F64Secs) (s : Str) : parseDuration f64 s ≠ .panic := by
  unfold parseDuration; split
  · simp
  · split <;> simp

/-! ### Keys -/

theorem parseHexdigit_iff {c : Char} {d : Nat} : parseHexdigit [c] = .ok d ↔ IsDigit 16 c d := by
  unfold parseHexdigit
  simp only [List.length_singleton, decide_true, rassert, if_true, R.bind_ok]
  rw [← toDigit_iff (by omega)]
  unfold fromStrRadix
  simp only
  by_cases h : c = '+' ∨ c = '-'
  · rw [if_pos h]
    rcases h with rfl | rfl
    · rw [toDigit_plus]; simp
    · rw [toDigit_minus]; simp
  · rw [if_neg h, parseDigits]
    cases hd : toDigit 16 c with
    | none => simp
    | some e =>
      have := toDigit_lt hd
      simp only [Nat.zero_mul, Nat.zero_add]
      rw [if_neg (by omega), parseDigits]
      simp

theorem parseHexdigit_not_panic (c : Char) : parseHexdigit [c] ≠ .panic := by
  unfold parseHexdigit
  simp only [List.length_singleton, decide_true, rassert, if_true, R.bind_ok]
  exact fromStrRadix_not_panic

theorem parseHexPairs_iff {s : Str} {bs : Bytes} (he : s.length % 2 = 0) : parseHexPairs s = .ok bs ↔ HexPairs s bs := by
  induction s using parseHexPairs.induct generalizing bs with
  | case1 a b rest ih =>
    rw [parseHexPairs]
    simp only [R.bind_eq_ok]
    constructor
    · rintro ⟨x, hx, y, hy, bs', hb, e⟩
      injection e with e
      subst e
      rw [ih (by simp at he; omega)] at hb
      rw [Nat.mul_comm x 16]
      exact .cons (parseHexdigit_iff.1 hx) (parseHexdigit_iff.1 hy) hb
    · intro h
      cases h with
      | @cons _ _ x y _ bs' hx hy hb =>
        refine ⟨x, parseHexdigit_iff.2 hx, y, parseHexdigit_iff.2 hy, bs', (ih (by simp at he; omega)).2 hb, ?_⟩
        rw [Nat.mul_comm x 16]
  | case2 s hs =>
    cases s with
    | nil =>
      rw [parseHexPairs]
      · constructor
        · intro e; injection e with e; subst e; exact .nil
        · intro h; cases h; rfl
      · simp
    | cons a s =>
      cases s with
      | nil => simp at he
      | cons b s => exact absurd rfl (hs a b s)

theorem parseHexPairs_not_panic (s : Str) : parseHexPairs s ≠ .panic := by
  induction s using parseHexPairs.induct with
  | case1 a b rest ih =>
    rw [parseHexPairs]
    refine R.bind_not_panic (parseHexdigit_not_panic a) fun _ _ => R.bind_not_panic (parseHexdigit_not_panic b) fun _ _ =>
      R.bind_not_panic ih (by simp)
  | case2 s hs => rw [parseHexPairs]; simp; exact hs

theorem hexPairs_length {s : Str} {bs : Bytes} (h : HexPairs s bs) : s.length = bs.length * 2 := by
  induction h with
  | nil => rfl
  | cons _ _ _ ih => simp [ih]; omega

theorem isDigit_ascii {c : Char} {d : Nat} (h : IsDigit 16 c d) : c.toNat < 128 := by
  have := isAsciiHexdigit_of ((toDigit_iff (by omega) c d).2 h)
  unfold isAsciiHexdigit isAsciiDigit at this
  simp at this
  omega

theorem hexPairs_ascii {s : Str} {bs : Bytes} (h : HexPairs s bs) : ∀ c ∈ s, c.toNat < 128 := by
  induction h with
  | nil => simp
  | cons ha hb _ ih =>
    intro c hc
    simp only [List.mem_cons] at hc
    rcases hc with rfl | rfl | hc
    · exact isDigit_ascii ha
    · exact isDigit_ascii hb
    · exact ih c hc

theorem parseHex_iff {size : Nat} {s : Str} {k : Arr size} : parseHex size s = .ok k ↔ HexPairs (trim s) k.val := by
  unfold parseHex
  simp only
  generalize trim s = t
  by_cases h1 : t.all (fun c => decide (c.toNat < 128)) = true
  · rw [if_neg (by simpa using h1)]
    by_cases h2 : t.length = size * 2
    · rw [if_neg (by simpa using h2)]
      have hp := fun bs => parseHexPairs_iff (s := t) (bs := bs) (by omega)
      cases hh : parseHexPairs t with
      | ok bs =>
        simp only
        have hb := (hp bs).1 hh
        have hl : bs.length = size := by have := hexPairs_length hb; omega
        rw [dif_pos hl]
        simp only [R.ok.injEq]
        constructor
        · rintro rfl; exact hb
        · intro h
          have := (hp _).2 h
          rw [hh] at this
          injection this with this
          exact Subtype.ext this
      | _ =>
        simp only [reduceCtorEq, false_iff]
        intro h
        have := (hp _).2 h
        rw [hh] at this
        cases this
    · rw [if_pos (by simpa using h2)]
      simp only [reduceCtorEq, false_iff]
      intro h
      exact h2 (by have := hexPairs_length h; rw [k.property] at this; exact this)
  · rw [if_pos h1]
    simp only [reduceCtorEq, false_iff]
    intro h
    apply h1
    rw [List.all_eq_true]
    intro c hc
    simpa using hexPairs_ascii h c hc

theorem parseHex_not_panic (size : Nat) (s : Str) : parseHex size s ≠ .panic := by
  unfold parseHex
  simp only
  generalize trim s = t
  by_cases h1 : t.all (fun c => decide (c.toNat < 128)) = true
  · rw [if_neg (by simpa using h1)]
    by_cases h2 : t.length = size * 2
    · rw [if_neg (by simpa using h2)]
      cases hh : parseHexPairs t with
      | ok bs =>
        simp only
        have hb := (parseHexPairs_iff (by omega)).1 hh
        have hl : bs.length = size := by have := hexPairs_length hb; omega
        rw [dif_pos hl]; simp
      | err => simp
      | panic => exact absurd hh (parseHexPairs_not_panic t)
    · rw [if_pos (by simpa using h2)]; simp
  · rw [if_pos h1]; simp

theorem arr_ne_replicate {n : Nat} {k : Arr n} {b : UInt8} : k ≠ Arr.replicate n b ↔ ∃ x ∈ k.val, x ≠ b := by
  constructor
  · intro h
    apply Classical.byContradiction
    intro hn
    apply h
    apply Subtype.ext
    show k.val = List.replicate n b
    rw [List.eq_replicate_iff]
    refine ⟨k.property, fun x hx => Classical.byContradiction fun hne => hn ⟨x, hx, hne⟩⟩
  · rintro ⟨x, hx, hne⟩ rfl
    exact hne (List.eq_of_mem_replicate hx)

theorem keyText_iff {s : Str} {k : Key} :
    KeyText s k ↔ parseHex KEY_SIZE s = .ok k ∧ k ≠ Arr.replicate KEY_SIZE 0 ∧ k ≠ Arr.replicate KEY_SIZE 0xFF := by
  unfold KeyText
  rw [exists_trimmed (P := fun t => HexPairs t k.val), parseHex_iff, arr_ne_replicate, arr_ne_replicate]

theorem keyText_unique {s : Str} {k k' : Key} (h : KeyText s k) (h' : KeyText s k') : k = k' := by
  rw [keyText_iff] at h h'
  have := h.1.symm.trans h'.1
  injection this

end Letmein
