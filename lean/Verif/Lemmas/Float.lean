import Verif.Model.Float
import Verif.Spec.Float
import Verif.Lemmas.ConfNum

/-!
# Lemmas about numbers with fraction
-/

namespace Letmein

open Spec

/-! ## Rounding -/

theorem div_mod_eq (n d : Nat) : n / d * d + n % d = n := by rw [Nat.mul_comm]; exact Nat.div_add_mod n d

theorem roundEven_cases (n d : Nat) :
    (roundEven n d = n / d ∧ 2 * (n % d) ≤ d ∧ (2 * (n % d) = d → n / d % 2 = 0)) ∨
    (roundEven n d = n / d + 1 ∧ d ≤ 2 * (n % d) ∧ (2 * (n % d) = d → n / d % 2 = 1)) := by
  unfold roundEven
  by_cases h1 : 2 * (n % d) < d
  · rw [if_pos h1]; exact .inl ⟨rfl, by omega, fun h => by omega⟩
  · rw [if_neg h1]
    by_cases h2 : d < 2 * (n % d)
    · rw [if_pos h2]; exact .inr ⟨rfl, by omega, fun h => by omega⟩
    · rw [if_neg h2]
      by_cases h3 : n / d % 2 = 0
      · rw [if_pos h3]; exact .inl ⟨rfl, by omega, fun _ => h3⟩
      · rw [if_neg h3]; exact .inr ⟨rfl, by omega, fun _ => by omega⟩

theorem roundEven_near {n d : Nat} (hd : 0 < d) :
    2 * n ≤ 2 * (roundEven n d * d) + d ∧ 2 * (roundEven n d * d) ≤ 2 * n + d := by
  have h0 := div_mod_eq n d
  have hm := Nat.mod_lt n hd
  rcases roundEven_cases n d with ⟨h, h1, _⟩ | ⟨h, h1, _⟩
  · rw [h]; omega
  · rw [h, Nat.add_mul, Nat.one_mul]
    omega

theorem roundEven_eq {n d m : Nat} (hd : 0 < d) (h1 : 2 * n < 2 * (m * d) + d) (h2 : 2 * (m * d) < 2 * n + d) : roundEven n d = m := by
  obtain ⟨h3, h4⟩ := roundEven_near (n := n) hd
  have h5 : roundEven n d * d < (m + 1) * d := by rw [Nat.add_mul, Nat.one_mul]; omega
  have h6 : m * d < (roundEven n d + 1) * d := by rw [Nat.add_mul, Nat.one_mul]; omega
  have h7 := Nat.lt_of_mul_lt_mul_right h5
  have h8 := Nat.lt_of_mul_lt_mul_right h6
  omega

theorem roundEven_ge {n d c : Nat} (hd : 0 < d) (h : c * d ≤ n) : c ≤ roundEven n d := by
  obtain ⟨h3, _⟩ := roundEven_near (n := n) hd
  have : c * d < (roundEven n d + 1) * d := by rw [Nat.add_mul, Nat.one_mul]; omega
  have := Nat.lt_of_mul_lt_mul_right this
  omega

theorem roundEven_le {n d c : Nat} (hd : 0 < d) (h : n ≤ c * d) : roundEven n d ≤ c := by
  obtain ⟨_, h4⟩ := roundEven_near (n := n) hd
  have : roundEven n d * d < (c + 1) * d := by rw [Nat.add_mul, Nat.one_mul]; omega
  have := Nat.lt_of_mul_lt_mul_right this
  omega

/-- A tie goes to the even number. -/
theorem roundEven_le_even {n d c : Nat} (hd : 0 < d) (hc : c % 2 = 0) (h : 2 * n ≤ 2 * (c * d) + d) : roundEven n d ≤ c := by
  have h0 := div_mod_eq n d
  have hm := Nat.mod_lt n hd
  have hq : n / d ≤ c := by
    have : n / d * d < (c + 1) * d := by rw [Nat.add_mul, Nat.one_mul]; omega
    have := Nat.lt_of_mul_lt_mul_right this
    omega
  rcases roundEven_cases n d with ⟨h1, _, _⟩ | ⟨h1, h2, h3⟩
  · omega
  · rcases Nat.lt_or_ge (n / d) c with h4 | h4
    · omega
    · have h5 : n / d = c := by omega
      rw [h5] at h0
      have h6 := h3 (by omega)
      rw [h5] at h6
      omega

theorem roundEven_mono {n n' d : Nat} (hd : 0 < d) (h : n ≤ n') : roundEven n d ≤ roundEven n' d := by
  have hq := Nat.div_le_div_right (c := d) h
  have h0 := div_mod_eq n d
  have h0' := div_mod_eq n' d
  rcases Nat.lt_or_ge (n / d) (n' / d) with hlt | hge
  · rcases roundEven_cases n d with ⟨h1, _, _⟩ | ⟨h1, _, _⟩ <;> rcases roundEven_cases n' d with ⟨h2, _, _⟩ | ⟨h2, _, _⟩ <;> omega
  · have he : n / d = n' / d := by omega
    rw [he] at h0
    have hr : n % d ≤ n' % d := by omega
    rcases roundEven_cases n d with ⟨h1, _, _⟩ | ⟨h1, h3, h4⟩ <;> rcases roundEven_cases n' d with ⟨h2, h5, h6⟩ | ⟨h2, _, _⟩
    · omega
    · omega
    · rw [he] at h4
      have : n % d = n' % d := by omega
      have h7 := h4 (by omega)
      have h8 := h6 (by omega)
      omega
    · omega

/-! ## Doubles -/

/-- The distance of neighbouring doubles, in units. -/
def ulpOf (n d : Nat) : Nat := 2 ^ (Nat.log2 (n / d) - 52)

theorem ulpOf_pos (n d : Nat) : 0 < ulpOf n d := Nat.two_pow_pos _

/-- Rounding to 53 bits. -/
def round53 (n d : Nat) : Nat := roundEven n (d * ulpOf n d) * ulpOf n d

theorem toDouble_eq (num den : Nat) : toDouble num den = round53 (num * 2 ^ 1074) den := rfl

theorem round53_near (n : Nat) {d : Nat} (hd : 0 < d) :
    2 * n ≤ 2 * (round53 n d * d) + d * ulpOf n d ∧ 2 * (round53 n d * d) ≤ 2 * n + d * ulpOf n d := by
  have h := roundEven_near (n := n) (Nat.mul_pos hd (ulpOf_pos n d))
  have e : roundEven n (d * ulpOf n d) * (d * ulpOf n d) = round53 n d * d := by
    unfold round53
    rw [Nat.mul_assoc, Nat.mul_comm d]
  rw [e] at h
  exact h

theorem log2_lt_of {u j : Nat} (h : u < 2 ^ j) (hj : 0 < j) : Nat.log2 u < j := by
  rcases Nat.eq_zero_or_pos u with rfl | hu
  · exact hj
  · exact (Nat.log2_lt (by omega)).2 h

theorem ulpOf_le {n d j : Nat} (h : n / d < 2 ^ j) (hj : 53 ≤ j) : ulpOf n d ≤ 2 ^ (j - 53) := by
  unfold ulpOf
  have := log2_lt_of h (by omega)
  exact Nat.pow_le_pow_right (by decide) (by omega)

theorem round53_le {n d j : Nat} (hd : 0 < d) (h : n / d < 2 ^ j) (hj : 53 ≤ j) : round53 n d ≤ 2 ^ j := by
  have hl := log2_lt_of h (by omega)
  have e : 2 ^ j = 2 ^ (j - (Nat.log2 (n / d) - 52)) * ulpOf n d := by
    unfold ulpOf
    rw [← Nat.pow_add]
    congr 1
    omega
  unfold round53
  rw [e]
  refine Nat.mul_le_mul_right _ (roundEven_le (Nat.mul_pos hd (ulpOf_pos _ _)) ?_)
  rw [Nat.mul_comm d, ← Nat.mul_assoc, ← e]
  have := (Nat.div_lt_iff_lt_mul hd).1 h
  omega

theorem round53_ge {n d j : Nat} (hd : 0 < d) (h : 2 ^ j ≤ n / d) (hj : 52 ≤ j) : 2 ^ j ≤ round53 n d := by
  have hu : n / d ≠ 0 := by have := Nat.two_pow_pos j; omega
  have hl : j ≤ Nat.log2 (n / d) := (Nat.le_log2 hu).2 h
  have e : 2 ^ Nat.log2 (n / d) = 2 ^ 52 * ulpOf n d := by
    unfold ulpOf
    rw [← Nat.pow_add]
    congr 1
    omega
  have h1 : 2 ^ 52 ≤ roundEven n (d * ulpOf n d) := by
    refine roundEven_ge (Nat.mul_pos hd (ulpOf_pos _ _)) ?_
    rw [Nat.mul_comm d, ← Nat.mul_assoc, ← e]
    have h2 := Nat.log2_self_le hu
    exact Nat.le_trans (Nat.mul_le_mul_right d h2) (Nat.div_mul_le_self n d)
  have h3 := Nat.pow_le_pow_right (n := 2) (by decide) hl
  refine Nat.le_trans h3 ?_
  rw [e]
  exact Nat.mul_le_mul_right _ h1

/-- What rounds to at most `m` (a multiple of the distance of doubles there, `2^b`, with an even number of them): everything up to half of that distance more. -/
theorem round53_le_iff {n d b c : Nat} (hd : 0 < d) (hc : c % 2 = 0) (h1 : 2 ^ 52 ≤ c) (h2 : c < 2 ^ 53) :
    round53 n d ≤ c * 2 ^ b ↔ 2 * n ≤ d * (2 * c * 2 ^ b + 2 ^ b) := by
  have p53 : 2 ^ (b + 53) = 2 ^ 53 * 2 ^ b := by rw [Nat.pow_add, Nat.mul_comm]
  have p52 : 2 ^ (b + 52) = 2 ^ 52 * 2 ^ b := by rw [Nat.pow_add, Nat.mul_comm]
  have hb := Nat.two_pow_pos b
  have hc53 : c * 2 ^ b < 2 ^ (b + 53) := by rw [p53]; exact Nat.mul_lt_mul_of_pos_right h2 hb
  have hc53' : (c + 1) * 2 ^ b ≤ 2 ^ (b + 53) := by rw [p53]; exact Nat.mul_le_mul_right _ h2
  have hc52 : 2 ^ (b + 52) ≤ c * 2 ^ b := by rw [p52]; exact Nat.mul_le_mul_right _ h1
  have hlt : ∀ {j}, n / d < 2 ^ j ↔ n < 2 ^ j * d := fun {j} => Nat.div_lt_iff_lt_mul hd
  constructor
  · intro h
    have hu : n / d < 2 ^ (b + 53) := by
      refine Nat.lt_of_not_le fun hge => ?_
      have := round53_ge hd hge (by omega)
      omega
    have hulp := ulpOf_le hu (by omega)
    have e : b + 53 - 53 = b := by omega
    rw [e] at hulp
    have h3 := (round53_near n hd).1
    have h4 := Nat.mul_le_mul_right d h
    have h5 := Nat.mul_le_mul_left d hulp
    have e2 : d * (2 * c * 2 ^ b + 2 ^ b) = 2 * (c * 2 ^ b * d) + d * 2 ^ b := by
      rw [Nat.mul_add, Nat.mul_comm d (2 * c * 2 ^ b), Nat.mul_assoc 2 c, Nat.mul_assoc 2]
    rw [e2]
    omega
  · intro h
    have e2 : d * (2 * c * 2 ^ b + 2 ^ b) = 2 * (c * 2 ^ b * d) + d * 2 ^ b := by
      rw [Nat.mul_add, Nat.mul_comm d (2 * c * 2 ^ b), Nat.mul_assoc 2 c, Nat.mul_assoc 2]
    rw [e2] at h
    have hu : n / d < 2 ^ (b + 53) := by
      rw [hlt]
      have h4 := Nat.mul_le_mul_right d hc53'
      rw [Nat.add_mul, Nat.one_mul, Nat.add_mul] at h4
      have h5 : 0 < 2 ^ b * d := Nat.mul_pos hb hd
      rw [Nat.mul_comm d] at h
      omega
    by_cases hs : n / d < 2 ^ (b + 52)
    · by_cases hb0 : b = 0
      · subst hb0
        have hl : Nat.log2 (n / d) - 52 = 0 := by
          have := log2_lt_of hu (by omega)
          omega
        have eu : ulpOf n d = 1 := by unfold ulpOf; rw [hl]
        unfold round53
        rw [eu, Nat.mul_one, Nat.mul_one]
        rw [Nat.pow_zero, Nat.mul_one] at h ⊢
        rw [Nat.mul_one] at h
        exact roundEven_le_even hd hc h
      · exact Nat.le_trans (round53_le hd hs (by omega)) hc52
    · have hl : Nat.log2 (n / d) = b + 52 := by
        have h3 := log2_lt_of hu (by omega)
        have h4 : b + 52 ≤ Nat.log2 (n / d) := (Nat.le_log2 (by have := Nat.two_pow_pos (b + 52); omega)).2 (by omega)
        omega
      have eu : ulpOf n d = 2 ^ b := by unfold ulpOf; rw [hl]; congr 1
      unfold round53
      rw [eu]
      refine Nat.mul_le_mul_right _ (roundEven_le_even (Nat.mul_pos hd hb) hc ?_)
      have e3 : c * (d * 2 ^ b) = c * 2 ^ b * d := by rw [Nat.mul_comm d, Nat.mul_assoc]
      rw [e3]
      exact h

/-- What rounds to zero. -/
theorem round53_eq_zero {n d : Nat} (hd : 0 < d) : round53 n d = 0 ↔ 2 * n ≤ d := by
  constructor
  · intro h
    have hu : n / d < 2 ^ 53 := by
      refine Nat.lt_of_not_le fun hge => ?_
      have := round53_ge hd hge (by omega)
      have := Nat.two_pow_pos 53
      omega
    have hulp := ulpOf_le hu (by omega)
    rw [Nat.sub_self, Nat.pow_zero] at hulp
    have h3 := (round53_near n hd).1
    rw [h, Nat.zero_mul] at h3
    have h5 := Nat.mul_le_mul_left d hulp
    omega
  · intro h
    have hu : n / d = 0 := Nat.div_eq_of_lt (by omega)
    have eu : ulpOf n d = 1 := by unfold ulpOf; rw [hu]; rfl
    unfold round53
    rw [eu, Nat.mul_one, Nat.mul_one]
    have := roundEven_le_even (n := n) (d := d) (c := 0) hd rfl (by omega)
    omega

/-! ## Texts -/

theorem toDigit_ascii {c : Char} : isAsciiDigit c = true ↔ toDigit 10 c = some (c.toNat - 48) := by
  constructor
  · intro h
    unfold isAsciiDigit at h
    simp only [Bool.and_eq_true, decide_eq_true_eq] at h
    unfold toDigit
    simp only [h, and_self, if_true]
    rw [if_pos (by omega)]
  · exact isAsciiDigit_of

theorem digitsValue_ascii {acc n : Nat} {s : Str} :
    digitsValue 10 acc s = some n ↔ s.all isAsciiDigit = true ∧ s.foldl (fun n c => n * 10 + (c.toNat - 48)) acc = n := by
  induction s generalizing acc with
  | nil => simp [digitsValue]
  | cons c s ih =>
    rw [digitsValue]
    by_cases h : isAsciiDigit c = true
    · rw [toDigit_ascii.1 h]
      simp only [ih, List.all_cons, h, Bool.true_and, List.foldl_cons]
    · have hn : toDigit 10 c = none := by
        cases hx : toDigit 10 c with
        | none => rfl
        | some d => exact absurd (isAsciiDigit_of hx) h
      rw [hn]
      simp [h]

theorem numeral_dec {s : Str} {n : Nat} : Numeral 10 s n ↔ s ≠ [] ∧ s.all isAsciiDigit = true ∧ decValue s = n := by
  rw [numeral_iff (by omega), digitsValue_ascii]
  rfl

theorem stripSign_spec (t : Str) : ∃ sg, SignText sg (stripSign t).1 ∧ t = sg ++ (stripSign t).2 := by
  unfold stripSign SignText
  cases t with
  | nil => exact ⟨[], .inl ⟨rfl, rfl⟩, rfl⟩
  | cons c r =>
    simp only
    by_cases h1 : c = '+'
    · rw [if_pos h1]; exact ⟨['+'], .inr (.inl ⟨rfl, rfl⟩), by rw [h1]; rfl⟩
    · rw [if_neg h1]
      by_cases h2 : c = '-'
      · rw [if_pos h2]; exact ⟨['-'], .inr (.inr ⟨rfl, rfl⟩), by rw [h2]; rfl⟩
      · rw [if_neg h2]; exact ⟨[], .inl ⟨rfl, rfl⟩, rfl⟩

theorem stripSign_of {sg r : Str} {neg : Bool} (h : SignText sg neg) (hr : ∀ c, r.head? = some c → c ≠ '+' ∧ c ≠ '-') :
    stripSign (sg ++ r) = (neg, r) := by
  rcases h with ⟨rfl, rfl⟩ | ⟨rfl, rfl⟩ | ⟨rfl, rfl⟩
  · cases r with
    | nil => rfl
    | cons c r =>
      have := hr c rfl
      simp [stripSign, this.1, this.2]
  · rfl
  · rfl

theorem ascii_not {c : Char} (h : isAsciiDigit c = true) : c ≠ '+' ∧ c ≠ '-' ∧ c ≠ '.' ∧ c ≠ 'e' ∧ c ≠ 'E' := by
  refine ⟨?_, ?_, ?_, ?_, ?_⟩ <;> (rintro rfl; revert h; decide)

theorem head_all {s : Str} (h : s.all isAsciiDigit = true) {c : Char} (hc : s.head? = some c) : isAsciiDigit c = true :=
  List.all_eq_true.1 h c (List.mem_of_mem_head? hc)

theorem parseExponent_iff {s : Str} {x : Int} : parseExponent s = some x ↔ ExponentText s x := by
  unfold parseExponent ExponentText
  cases s with
  | nil =>
    simp only [Option.some.injEq, true_and]
    constructor
    · intro h; exact .inl h.symm
    · rintro (h | ⟨c, sg, neg, ds, n, h, _⟩)
      · exact h.symm
      · cases h
  | cons c r =>
    simp only
    constructor
    · intro h
      split at h
      · rename_i hc
        split at h
        · rename_i hd
          injection h with h
          obtain ⟨sg, h1, h2⟩ := stripSign_spec r
          exact .inr ⟨c, sg, _, (stripSign r).2, _, by rw [← h2], hc, h1, numeral_dec.2 ⟨hd.1, hd.2, rfl⟩, h.symm⟩
        · cases h
      · cases h
    · rintro (⟨h, _⟩ | ⟨c', sg, neg, ds, n, h, hc, hs, hn, rfl⟩)
      · cases h
      · cases h
        obtain ⟨h1, h2, rfl⟩ := numeral_dec.1 hn
        have e : stripSign (sg ++ ds) = (neg, ds) := stripSign_of hs fun c hx => by
          have := ascii_not (head_all h2 hx); exact ⟨this.1, this.2.1⟩
        rw [if_pos hc, e]
        simp only
        rw [if_pos ⟨h1, h2⟩]

theorem takeWhile_split {p : Char → Bool} {a b : Str} (ha : a.all p = true) (hb : ∀ c, b.head? = some c → p c = false) :
    (a ++ b).takeWhile p = a ∧ (a ++ b).dropWhile p = b := by
  induction a with
  | nil =>
    cases b with
    | nil => exact ⟨rfl, rfl⟩
    | cons c b => have := hb c rfl; simp [this]
  | cons x a ih =>
    simp only [List.all_cons, Bool.and_eq_true] at ha
    have := ih ha.2
    simp [ha.1, this.1, this.2]

theorem exponent_head {s : Str} {x : Int} (h : ExponentText s x) {c : Char} (hc : s.head? = some c) : c = 'e' ∨ c = 'E' := by
  rcases h with ⟨rfl, _⟩ | ⟨c', sg, neg, ds, n, rfl, h, _⟩
  · cases hc
  · injection hc with hc; subst hc; exact h

theorem parseDecimal_iff {t : Str} {d : Decimal} : parseDecimal t = some d ↔ DecimalText t d.neg d.mant d.exp := by
  constructor
  · intro h
    unfold parseDecimal at h
    simp only at h
    obtain ⟨sg, h1, h2⟩ := stripSign_spec t
    generalize (stripSign t).2 = u at *
    have hip : (u.takeWhile isAsciiDigit).all isAsciiDigit = true := List.all_takeWhile
    have hu : u = u.takeWhile isAsciiDigit ++ u.dropWhile isAsciiDigit := List.takeWhile_append_dropWhile.symm
    generalize u.takeWhile isAsciiDigit = ip at *
    by_cases hp : (u.dropWhile isAsciiDigit).head? = some '.'
    · simp only [hp, if_true] at h
      generalize hr : u.dropWhile isAsciiDigit = r at *
      cases r with
      | nil => cases hp
      | cons c r =>
        injection hp with hp
        subst hp
        have hfp : (r.takeWhile isAsciiDigit).all isAsciiDigit = true := List.all_takeWhile
        have hv : r = r.takeWhile isAsciiDigit ++ r.dropWhile isAsciiDigit := List.takeWhile_append_dropWhile.symm
        rw [List.tail_cons] at h
        generalize r.takeWhile isAsciiDigit = fp at *
        generalize r.dropWhile isAsciiDigit = ep at *
        split at h
        · cases h
        · rename_i hne
          split at h
          · cases h
          · rename_i x hx
            injection h with h
            subst h
            refine ⟨sg, ip, '.' :: fp, fp, ep, x, ?_, h1, .inr rfl, ?_, parseExponent_iff.1 hx, rfl⟩
            · rw [List.cons_append, ← hv, ← hu]; exact h2
            · refine numeral_dec.2 ⟨?_, by rw [List.all_append, hip, hfp]; rfl, rfl⟩
              intro he
              rw [he] at hne
              exact hne rfl
    · simp only [hp, if_false] at h
      split at h
      · cases h
      · rename_i hne
        split at h
        · cases h
        · rename_i x hx
          injection h with h
          subst h
          refine ⟨sg, ip, [], [], u.dropWhile isAsciiDigit, x, ?_, h1, .inl ⟨rfl, rfl⟩, ?_, parseExponent_iff.1 hx, rfl⟩
          · rw [List.nil_append, ← hu]; exact h2
          · refine numeral_dec.2 ⟨?_, by rw [List.all_append, hip]; rfl, rfl⟩
            intro he
            rw [he] at hne
            exact hne rfl
  · rintro ⟨sg, ip, fr, fp, ep, x, ht, hs, hf, hn, he, hexp⟩
    obtain ⟨h1, h2, h3⟩ := numeral_dec.1 hn
    rw [List.all_append, Bool.and_eq_true] at h2
    have hep : ∀ c, ep.head? = some c → isAsciiDigit c = false ∧ c ≠ '.' ∧ c ≠ '+' ∧ c ≠ '-' := by
      intro c hc
      rcases exponent_head he hc with rfl | rfl <;> decide
    have hfe : ∀ c, (fr ++ ep).head? = some c → isAsciiDigit c = false := by
      intro c hc
      rcases hf with ⟨rfl, _⟩ | rfl
      · exact (hep c hc).1
      · injection hc with hc; subst hc; decide
    have hsign : stripSign (sg ++ (ip ++ (fr ++ ep))) = (d.neg, ip ++ (fr ++ ep)) := by
      refine stripSign_of hs fun c hc => ?_
      cases ip with
      | cons y ip =>
        have : isAsciiDigit c = true := head_all (s := y :: ip) h2.1 (by simpa using hc)
        exact ⟨(ascii_not this).1, (ascii_not this).2.1⟩
      | nil =>
        rcases hf with ⟨rfl, rfl⟩ | rfl
        · exact absurd rfl h1
        · injection hc with hc; subst hc; decide
    obtain ⟨e1, e2⟩ := takeWhile_split (b := fr ++ ep) h2.1 hfe
    unfold parseDecimal
    rw [ht]
    simp only [hsign, e1, e2]
    rcases hf with ⟨rfl, rfl⟩ | rfl
    · have hnp : ep.head? ≠ some '.' := fun hc => (hep _ hc).2.1 rfl
      simp only [List.nil_append, hnp, if_false]
      have hne : (ip ++ []).isEmpty = false := by
        cases hx : ip ++ [] with
        | nil => exact absurd hx h1
        | cons _ _ => rfl
      rw [hne, parseExponent_iff.2 he]
      simp only [Bool.false_eq_true, if_false]
      obtain ⟨neg, mant, exp⟩ := d
      simp only at h3 hexp
      rw [h3, hexp]
    · obtain ⟨e3, e4⟩ := takeWhile_split (a := fp) (b := ep) h2.2 (fun c hc => (hep c hc).1)
      have hh : (('.' :: fp) ++ ep).head? = some '.' := rfl
      have ht' : (('.' :: fp) ++ ep).tail = fp ++ ep := rfl
      simp only [hh, if_true, ht', e3, e4]
      have hne : (ip ++ fp).isEmpty = false := by
        cases hx : ip ++ fp with
        | nil => exact absurd hx h1
        | cons _ _ => rfl
      rw [hne, parseExponent_iff.2 he]
      simp only [Bool.false_eq_true, if_false]
      obtain ⟨neg, mant, exp⟩ := d
      simp only at h3 hexp
      rw [h3, hexp]

/-- Texts that are whole numbers are decimal numbers of the same value. -/
theorem number_decimal {t : Str} {n : Nat} (h : Number 10 t n) : DecimalText t false n 0 := by
  rcases h with h | ⟨u, rfl, h⟩
  · exact ⟨[], t, [], [], [], 0, by simp, .inl ⟨rfl, rfl⟩, .inl ⟨rfl, rfl⟩, by simpa using h, .inl ⟨rfl, rfl⟩, rfl⟩
  · exact ⟨['+'], u, [], [], [], 0, by simp, .inr (.inl ⟨rfl, rfl⟩), .inl ⟨rfl, rfl⟩, by simpa using h, .inl ⟨rfl, rfl⟩, rfl⟩

theorem decimal_unique {t : Str} {neg neg' : Bool} {m m' : Nat} {e e' : Int} (h : DecimalText t neg m e) (h' : DecimalText t neg' m' e') :
    neg = neg' ∧ m = m' ∧ e = e' := by
  have h1 := parseDecimal_iff (d := ⟨neg, m, e⟩).2 h
  rw [parseDecimal_iff (d := ⟨neg', m', e'⟩).2 h'] at h1
  injection h1 with h1
  injection h1 with h1 h2 h3
  exact ⟨h1.symm, h2.symm, h3.symm⟩

theorem decimal_not_hex {h : Str} {neg : Bool} {m : Nat} {e : Int} : ¬ DecimalText ('0' :: 'x' :: h) neg m e := by
  intro hd
  have := parseDecimal_iff (d := ⟨neg, m, e⟩).2 hd
  simp [parseDecimal, stripSign, isAsciiDigit, parseExponent] at this

/-! ## Rounding and order -/

theorem roundEven_scale {n d k : Nat} (hk : 0 < k) : roundEven (n * k) (d * k) = roundEven n d := by
  unfold roundEven
  rw [Nat.mul_div_mul_right n d hk, Nat.mul_mod_mul_right]
  have h1 : 2 * (n % d * k) < d * k ↔ 2 * (n % d) < d := by
    rw [← Nat.mul_assoc]; exact Nat.mul_lt_mul_right hk
  have h2 : d * k < 2 * (n % d * k) ↔ d < 2 * (n % d) := by
    rw [← Nat.mul_assoc]; exact Nat.mul_lt_mul_right hk
  simp only [h1, h2]

theorem round53_scale {n d k : Nat} (hk : 0 < k) : round53 (n * k) (d * k) = round53 n d := by
  unfold round53 ulpOf
  rw [Nat.mul_div_mul_right n d hk, Nat.mul_right_comm d k, roundEven_scale hk]

theorem round53_mono {n n' d : Nat} (hd : 0 < d) (h : n ≤ n') : round53 n d ≤ round53 n' d := by
  have hq := Nat.div_le_div_right (c := d) h
  by_cases he : ulpOf n d = ulpOf n' d
  · unfold round53
    rw [he]
    exact Nat.mul_le_mul_right _ (roundEven_mono (Nat.mul_pos hd (ulpOf_pos _ _)) h)
  · have hl : Nat.log2 (n / d) ≤ Nat.log2 (n' / d) := by
      rcases Nat.eq_zero_or_pos (n / d) with h0 | h0
      · rw [h0]; exact Nat.zero_le _
      · exact (Nat.le_log2 (by omega)).2 (Nat.le_trans (Nat.log2_self_le (by omega)) hq)
    have hlt : Nat.log2 (n / d) < Nat.log2 (n' / d) := by
      refine Nat.lt_of_le_of_ne hl fun e => he ?_
      unfold ulpOf; rw [e]
    have h53 : 53 ≤ Nat.log2 (n' / d) := by
      refine Nat.le_of_not_lt fun hlt' => he ?_
      unfold ulpOf
      rw [Nat.sub_eq_zero_of_le (by omega), Nat.sub_eq_zero_of_le (by omega)]
    have hne : n' / d ≠ 0 := fun h0 => by rw [h0] at h53; exact absurd h53 (by decide)
    have hle : 2 ^ Nat.log2 (n' / d) ≤ n' / d := Nat.log2_self_le hne
    have hlt2 : n / d < 2 ^ Nat.log2 (n' / d) := by
      rcases Nat.eq_zero_or_pos (n / d) with h0 | h0
      · rw [h0]; exact Nat.two_pow_pos _
      · exact (Nat.log2_lt (by omega)).1 hlt
    exact Nat.le_trans (round53_le hd hlt2 h53) (round53_ge hd hle (by omega))

theorem round53_mono_frac {n n' d d' : Nat} (hd : 0 < d) (hd' : 0 < d') (h : n * d' ≤ n' * d) : round53 n d ≤ round53 n' d' := by
  rw [← round53_scale (n := n) (d := d) hd', ← round53_scale (n := n') (d := d') hd, Nat.mul_comm d' d]
  exact round53_mono (Nat.mul_pos hd hd') h

theorem roundEven_mul (c : Nat) {d : Nat} (hd : 0 < d) : roundEven (c * d) d = c :=
  roundEven_eq hd (by omega) (by omega)

/-- A number of at most 53 bits, shifted, is not changed. -/
theorem round53_exact {k b d : Nat} (hd : 0 < d) (hk : k < 2 ^ 53) : round53 (k * 2 ^ b * d) d = k * 2 ^ b := by
  have hq : k * 2 ^ b * d / d = k * 2 ^ b := Nat.mul_div_cancel _ hd
  have hlt : k * 2 ^ b < 2 ^ (b + 53) := by
    rw [Nat.pow_add, Nat.mul_comm (2 ^ b)]
    exact Nat.mul_lt_mul_of_pos_right hk (Nat.two_pow_pos b)
  have hl := log2_lt_of hlt (by omega)
  unfold round53 ulpOf
  rw [hq]
  have e : 2 ^ b = 2 ^ (b - (Nat.log2 (k * 2 ^ b) - 52)) * 2 ^ (Nat.log2 (k * 2 ^ b) - 52) := by
    rw [← Nat.pow_add]; congr 1; omega
  generalize hj : 2 ^ (Nat.log2 (k * 2 ^ b) - 52) = j at *
  have hjp : 0 < j := by rw [← hj]; exact Nat.two_pow_pos _
  generalize 2 ^ (b - (Nat.log2 (k * 2 ^ b) - 52)) = c at *
  have e1 : k * 2 ^ b * d = k * c * (d * j) := by
    rw [e]; simp only [Nat.mul_assoc, Nat.mul_comm, Nat.mul_left_comm]
  rw [e1, roundEven_mul _ (Nat.mul_pos hd hjp), Nat.mul_assoc, ← e]

/-! ## Times -/

theorem decDen_pos (e : Int) : 0 < decDen e := Nat.pow_pos (by decide)

theorem f64Secs_of {t : Str} {neg : Bool} {m : Nat} {e : Int} (h : DecimalText t neg m e) :
    f64Secs t = if neg = true ∧ round53 (decNum m e * 2 ^ 1074) (decDen e) ≠ 0 then none
      else if round53 (decNum m e * 2 ^ 1074) (decDen e) ≤ 4294967295 * 2 ^ 1074
      then some (fromSecsF64 (round53 (decNum m e * 2 ^ 1074) (decDen e))) else none := by
  unfold f64Secs
  rw [parseDecimal_iff (d := ⟨neg, m, e⟩).2 h]
  rfl

theorem f64Secs_none {t : Str} (h : ¬ ∃ neg m e, DecimalText t neg m e) : f64Secs t = none := by
  unfold f64Secs
  cases hp : parseDecimal t with
  | none => rfl
  | some d => exact absurd ⟨_, _, _, parseDecimal_iff.1 hp⟩ h

theorem u32max_iff {n d : Nat} (hd : 0 < d) :
    round53 (n * 2 ^ 1074) d ≤ 4294967295 * 2 ^ 1074 ↔ n * 2 ^ 22 ≤ d * (4294967295 * 2 ^ 22 + 1) := by
  have hP := Nat.two_pow_pos 1053
  have e1 : 2 ^ 1074 = 2 ^ 21 * 2 ^ 1053 := by rw [← Nat.pow_add]
  have e2 : 4294967295 * 2 ^ 1074 = (4294967295 * 2 ^ 21) * 2 ^ 1053 := by rw [e1, Nat.mul_assoc]
  rw [e2, round53_le_iff hd (by decide) (by decide) (by decide), e1]
  generalize 2 ^ 1053 = P at *
  have e3 : 2 * (n * (2 ^ 21 * P)) = n * 2 ^ 22 * P := by
    rw [show 2 * (n * (2 ^ 21 * P)) = (2 * 2 ^ 21) * n * P by simp only [Nat.mul_assoc, Nat.mul_left_comm], Nat.mul_comm _ n]
  have e4 : d * (2 * (4294967295 * 2 ^ 21) * P + P) = d * (4294967295 * 2 ^ 22 + 1) * P := by
    rw [Nat.mul_assoc d, show 2 * (4294967295 * 2 ^ 21) * P + P = (4294967295 * 2 ^ 22 + 1) * P by omega]
  rw [e3, e4]
  exact ⟨fun h => Nat.le_of_mul_le_mul_right h hP, fun h => Nat.mul_le_mul_right _ h⟩

theorem zero_iff {n d : Nat} (hd : 0 < d) : round53 (n * 2 ^ 1074) d = 0 ↔ n * 2 ^ 1075 ≤ d := by
  rw [round53_eq_zero hd]
  have e : n * 2 ^ 1075 = 2 * (n * 2 ^ 1074) := by
    rw [show 1075 = 1074 + 1 from rfl, Nat.pow_succ]
    generalize 2 ^ 1074 = Q
    rw [← Nat.mul_assoc, Nat.mul_comm]
  rw [e]

theorem fromSecsF64_eq (x : Nat) : fromSecsF64 x = roundEven (x * 1000000000) (2 ^ 1074) := rfl

theorem fromSecsF64_zero : fromSecsF64 0 = 0 := by
  unfold fromSecsF64
  have := roundEven_mul 0 (Nat.two_pow_pos 1074)
  generalize 2 ^ 1074 = Q at *
  rw [Nat.zero_mul] at *
  exact this

theorem f64Secs_some_iff {t : Str} {neg : Bool} {m : Nat} {e : Int} (h : DecimalText t neg m e) {d : Duration} :
    f64Secs t = some d ↔ TimeInRange neg m e ∧ d = if neg then 0 else fromSecsF64 (round53 (decNum m e * 2 ^ 1074) (decDen e)) := by
  rw [f64Secs_of h]
  unfold TimeInRange
  have hz := zero_iff (n := decNum m e) (decDen_pos e)
  have hu := u32max_iff (n := decNum m e) (decDen_pos e)
  rw [← hz, ← hu]
  have h0 := fromSecsF64_zero
  generalize round53 (decNum m e * 2 ^ 1074) (decDen e) = x at *
  generalize 4294967295 * 2 ^ 1074 = B at *
  cases neg with
  | true =>
    simp only [true_and, if_true]
    by_cases hx : x = 0
    · subst hx
      simp [h0, eq_comm]
    · simp [hx]
  | false =>
    simp only [Bool.false_eq_true, false_and, if_false]
    by_cases hx : x ≤ B
    · simp [hx, eq_comm]
    · simp [hx]

/-- The whole seconds, as a double. -/
theorem fromSecs_whole (n : Nat) : fromSecsF64 (n * 2 ^ 1074) = n * 1000000000 := by
  unfold fromSecsF64
  rw [Nat.mul_right_comm]
  exact roundEven_mul _ (Nat.two_pow_pos 1074)

theorem f64Secs_whole {t : Str} {n : Nat} (h : Number 10 t n) (hn : n < 2 ^ 32) : f64Secs t = some (n * 1000000000) := by
  rw [f64Secs_some_iff (number_decimal h)]
  have hN : decNum n 0 = n := by unfold decNum; simp
  have hD : decDen 0 = 1 := rfl
  refine ⟨?_, ?_⟩
  · unfold TimeInRange
    rw [hN, hD]
    simp only [Bool.false_eq_true, if_false]
    omega
  · have := round53_exact (k := n) (b := 1074) (d := 1) (by decide) (by omega)
    rw [Nat.mul_one] at this
    rw [hN, hD, this, fromSecs_whole]
    rfl

theorem trimmed_unique' {s t t' : Str} (h : Trimmed s t) (h' : Trimmed s t') : t = t' := by
  rw [trimmed_iff] at h h'
  rw [← h, ← h']

/-- A decimal text is read the same way, whether it is a whole number or not. -/
theorem duration_decimal {s t : Str} {neg : Bool} {m : Nat} {e : Int} (ht : Trimmed s t) (h : DecimalText t neg m e) {d : Duration} :
    parseDuration f64Secs s = .ok d ↔ f64Secs t = some d := by
  rw [parseDuration_iff]
  unfold DurationText
  constructor
  · rintro (⟨n, ⟨t', ht', hn⟩, hlt, rfl⟩ | ⟨_, t', ht', hd⟩)
    · obtain rfl := trimmed_unique' ht ht'
      rcases hn with hn | ⟨u, rfl, _⟩
      · exact f64Secs_whole hn hlt
      · exact absurd h decimal_not_hex
    · obtain rfl := trimmed_unique' ht ht'
      exact hd
  · intro hd
    by_cases hn : ∃ n, NatText s n ∧ n < 2 ^ 32
    · obtain ⟨n, ⟨t', ht', hn⟩, hlt⟩ := hn
      refine .inl ⟨n, ⟨t', ht', hn⟩, hlt, ?_⟩
      obtain rfl := trimmed_unique' ht ht'
      rcases hn with hn | ⟨u, rfl, _⟩
      · rw [f64Secs_whole hn hlt] at hd
        injection hd with hd
        exact hd.symm
      · exact absurd h decimal_not_hex
    · exact .inr ⟨hn, t, ht, hd⟩

/-- How far the time is from the number. -/
theorem fromSecs_near {n d u : Nat} (hd : 0 < d) (hu : ulpOf (n * 2 ^ 1074) d ≤ u) :
    2 * (n * 1000000000) * 2 ^ 1074 ≤ 2 * (roundEven (round53 (n * 2 ^ 1074) d * 1000000000) (2 ^ 1074) * d) * 2 ^ 1074 + d * (u * 1000000000 + 2 ^ 1074) ∧
    2 * (roundEven (round53 (n * 2 ^ 1074) d * 1000000000) (2 ^ 1074) * d) * 2 ^ 1074 ≤ 2 * (n * 1000000000) * 2 ^ 1074 + d * (u * 1000000000 + 2 ^ 1074) := by
  obtain ⟨h1, h2⟩ := round53_near (n * 2 ^ 1074) hd
  have hdu := Nat.mul_le_mul_left d hu
  have hQ := Nat.two_pow_pos 1074
  generalize round53 (n * 2 ^ 1074) d = x at *
  obtain ⟨h3, h4⟩ := roundEven_near (n := x * 1000000000) hQ
  generalize roundEven (x * 1000000000) (2 ^ 1074) = y at *
  generalize 2 ^ 1074 = Q at *
  generalize ulpOf (n * Q) d = v at *
  have h3' := Nat.mul_le_mul_right d h3
  have h4' := Nat.mul_le_mul_right d h4
  rw [Nat.add_mul] at h3' h4'
  have e1 : 2 * (x * 1000000000) * d = 1000000000 * (2 * (x * d)) := by
    simp only [Nat.mul_assoc, Nat.mul_comm, Nat.mul_left_comm]
  have e2 : 2 * (y * Q) * d = 2 * (y * d) * Q := by
    simp only [Nat.mul_assoc, Nat.mul_comm, Nat.mul_left_comm]
  have e3 : 2 * (n * 1000000000) * Q = 1000000000 * (2 * (n * Q)) := by
    simp only [Nat.mul_assoc, Nat.mul_comm, Nat.mul_left_comm]
  have e4 : d * (u * 1000000000 + Q) = 1000000000 * (d * u) + Q * d := by
    rw [Nat.mul_add, Nat.mul_comm Q d, ← Nat.mul_assoc, Nat.mul_comm _ 1000000000]
  rw [e1, e2] at h3' h4'
  rw [e3, e4]
  generalize 2 * (y * d) * Q = Y at *
  generalize x * d = X at *
  generalize n * Q = N at *
  generalize d * u = U at *
  generalize d * v = V at *
  generalize Q * d = W at *
  clear e1 e2 e3 e4 h3 h4
  constructor <;> omega

/-- The common factor removed. -/
theorem near_cancel {A B d Q P c : Nat} (hP : 0 < P) (hQ : Q = c * P) (h : 2 * A * Q ≤ 2 * B * Q + d * (P * 1000000000 + Q)) :
    2 * A * c ≤ 2 * B * c + d * (1000000000 + c) := by
  subst hQ
  have e2 : ∀ z, z * (c * P) = z * c * P := fun z => (Nat.mul_assoc _ _ _).symm
  have e3 : d * (P * 1000000000 + c * P) = d * (1000000000 + c) * P := by
    rw [Nat.mul_assoc, Nat.add_mul, Nat.mul_comm P]
  rw [e2, e2, e3, ← Nat.add_mul] at h
  exact Nat.le_of_mul_le_mul_right h hP

theorem units_lt {n d j k : Nat} (hd : 0 < d) (h : n < 2 ^ j * d) (hk : k = j + 1074) : n * 2 ^ 1074 / d < 2 ^ k := by
  subst hk
  rw [Nat.div_lt_iff_lt_mul hd, Nat.pow_add, Nat.mul_right_comm]
  exact Nat.mul_lt_mul_of_pos_right h (Nat.two_pow_pos 1074)

theorem pow_split {a b c : Nat} (h : a = b + c) : 2 ^ a = 2 ^ b * 2 ^ c := by rw [h, Nat.pow_add]

theorem fromSecs_scaled {n d a c : Nat} (hd : 0 < d) (hu : ulpOf (n * 2 ^ 1074) d ≤ 2 ^ a) (ha : 1074 = c + a) :
    2 * (n * 1000000000) * 2 ^ c ≤ 2 * (roundEven (round53 (n * 2 ^ 1074) d * 1000000000) (2 ^ 1074) * d) * 2 ^ c + d * (1000000000 + 2 ^ c) ∧
    2 * (roundEven (round53 (n * 2 ^ 1074) d * 1000000000) (2 ^ 1074) * d) * 2 ^ c ≤ 2 * (n * 1000000000) * 2 ^ c + d * (1000000000 + 2 ^ c) := by
  obtain ⟨h1, h2⟩ := fromSecs_near hd hu
  generalize roundEven (round53 (n * 2 ^ 1074) d * 1000000000) (2 ^ 1074) = y at h1 h2 ⊢
  have hP := Nat.two_pow_pos a
  have hQ := pow_split ha
  generalize 2 ^ 1074 = Q at h1 h2 hQ
  exact ⟨near_cancel hP hQ h1, near_cancel hP hQ h2⟩

/-- Up to `u32::MAX` seconds the error is below 239 ns. -/
theorem fromSecs_239 {n d : Nat} (hd : 0 < d) (h : n * 2 ^ 22 ≤ d * (4294967295 * 2 ^ 22 + 1)) :
    n * 1000000000 ≤ roundEven (round53 (n * 2 ^ 1074) d * 1000000000) (2 ^ 1074) * d + 239 * d ∧
    roundEven (round53 (n * 2 ^ 1074) d * 1000000000) (2 ^ 1074) * d ≤ n * 1000000000 + 239 * d := by
  have hn : n < 2 ^ 32 * d := by omega
  have hu := ulpOf_le (units_lt hd hn (k := 1106) (by omega)) (by omega)
  obtain ⟨h1, h2⟩ := fromSecs_scaled (c := 21) hd hu (by omega)
  generalize roundEven (round53 (n * 2 ^ 1074) d * 1000000000) (2 ^ 1074) = y at h1 h2 ⊢
  generalize y * d = Y at *
  omega

/-- Below `2^23` seconds whole nanoseconds are exact. -/
theorem fromSecs_exact {n d k : Nat} (hd : 0 < d) (h : n < 2 ^ 23 * d) (hk : n * 1000000000 = k * d) :
    roundEven (round53 (n * 2 ^ 1074) d * 1000000000) (2 ^ 1074) = k := by
  have hu := ulpOf_le (units_lt hd h (k := 1097) (by omega)) (by omega)
  obtain ⟨h1, h2⟩ := fromSecs_scaled (c := 30) hd hu (by omega)
  generalize roundEven (round53 (n * 2 ^ 1074) d * 1000000000) (2 ^ 1074) = y at h1 h2 ⊢
  rw [hk] at h1 h2
  have h5 : k * d < (y + 1) * d := by rw [Nat.add_mul]; generalize y * d = Y at *; generalize k * d = K at *; omega
  have h6 : y * d < (k + 1) * d := by rw [Nat.add_mul]; generalize y * d = Y at *; generalize k * d = K at *; omega
  have h7 := Nat.lt_of_mul_lt_mul_right h5
  have h8 := Nat.lt_of_mul_lt_mul_right h6
  omega

/-! ## The nearest double -/

theorem nearestNat_iff {n d x : Nat} (hd : 0 < d) : roundEven n d = x ↔ NearestNat n d x := by
  unfold NearestNat
  have h0 := div_mod_eq n d
  have hm := Nat.mod_lt n hd
  have e : ∀ z, d * (2 * z + 1) = 2 * (z * d) + d := fun z => by
    rw [Nat.mul_add, Nat.mul_one, Nat.mul_comm z d, Nat.mul_left_comm]
  have e' : ∀ z, d * (2 * z) = 2 * (z * d) := fun z => by rw [Nat.mul_comm z d, Nat.mul_left_comm]
  have ea : (n / d + 1) * d = n / d * d + d := by rw [Nat.add_mul, Nat.one_mul]
  constructor
  · rintro rfl
    rcases roundEven_cases n d with ⟨h, h1, h2⟩ | ⟨h, h1, h2⟩ <;> rw [h, e, e'] <;> refine ⟨by omega, by omega, fun h3 => ?_⟩
    · have : 2 * (n % d) = d := by omega
      exact h2 this
    · have : 2 * (n % d) = d := by omega
      have := h2 this
      omega
  · rintro ⟨h1, h2, h3⟩
    rw [e, e'] at h3
    rw [e] at h1
    rw [e'] at h2
    by_cases hs : 2 * n < 2 * (x * d) + d ∧ 2 * (x * d) < 2 * n + d
    · exact roundEven_eq hd hs.1 hs.2
    · have hx := h3 (by omega)
      rcases (by omega : 2 * n = 2 * (x * d) + d ∨ 2 * (x * d) = 2 * n + d) with ht | ht
      · have hle := roundEven_le_even (c := x) hd hx (by omega)
        have hge := roundEven_ge (c := x) hd (by omega : x * d ≤ n)
        omega
      · -- `n` is half below `x`
        have hx0 : 0 < x := by
          rcases Nat.eq_zero_or_pos x with rfl | h
          · omega
          · exact h
        have hxd : (x - 1) * d + d = x * d := by
          rw [← Nat.succ_mul, Nat.succ_eq_add_one, Nat.sub_add_cancel hx0]
        have hle := roundEven_le (c := x) hd (by omega : n ≤ x * d)
        have hge := roundEven_ge (c := x - 1) hd (by omega : (x - 1) * d ≤ n)
        rcases roundEven_cases n d with ⟨h, h4, h5⟩ | ⟨h, h4, h5⟩
        · have hq : n / d = x - 1 ∨ n / d = x := by omega
          rcases hq with hq | hq
          · rw [hq] at h0 h5
            have := h5 (by omega)
            omega
          · omega
        · have hq : n / d = x - 1 ∨ n / d + 1 = x - 1 := by omega
          rcases hq with hq | hq
          · omega
          · have : (n / d + 1) * d = (x - 1) * d := by rw [hq]
            omega

/-- A double that is not below `2^L` is a multiple of the unit in the last place. -/
theorem double_multiple {y L : Nat} (h : IsDouble y) (hL : 2 ^ L ≤ y) : ∃ c, y = c * 2 ^ (L - 52) := by
  obtain ⟨k, b, hk, rfl⟩ := h
  have hb : L - 52 ≤ b := by
    refine Nat.le_of_not_lt fun hlt => ?_
    have h1 : k * 2 ^ b < 2 ^ 53 * 2 ^ b := Nat.mul_lt_mul_of_pos_right hk (Nat.two_pow_pos b)
    rw [← Nat.pow_add] at h1
    have h2 : 2 ^ (53 + b) ≤ 2 ^ L := Nat.pow_le_pow_right (by decide) (by omega)
    omega
  refine ⟨k * 2 ^ (b - (L - 52)), ?_⟩
  rw [Nat.mul_assoc, ← Nat.pow_add, Nat.sub_add_cancel hb]

theorem nearestDouble_round53 {n d : Nat} (hd : 0 < d) : NearestDouble n d (round53 n d) := by
  obtain ⟨hn1, hn2⟩ := round53_near n hd
  have hpos := ulpOf_pos n d
  have heven := (nearestNat_iff (n := n) (Nat.mul_pos hd hpos)).1 rfl
  have hx : round53 n d = roundEven n (d * ulpOf n d) * ulpOf n d := rfl
  have hu : ulpOf n d = 2 ^ (Nat.log2 (n / d) - 52) := rfl
  have hr1 : n / d ≠ 0 → 52 ≤ Nat.log2 (n / d) → 2 ^ 52 ≤ roundEven n (d * ulpOf n d) := by
    intro h0 h52
    refine roundEven_ge (Nat.mul_pos hd hpos) ?_
    have h3 : 2 ^ Nat.log2 (n / d) ≤ n / d := Nat.log2_self_le h0
    have h4 : 2 ^ Nat.log2 (n / d) = 2 ^ 52 * ulpOf n d := by rw [hu, ← Nat.pow_add]; congr 1; omega
    rw [h4, Nat.le_div_iff_mul_le hd] at h3
    rw [Nat.mul_comm d, ← Nat.mul_assoc]
    exact h3
  have hr2 : roundEven n (d * ulpOf n d) ≤ 2 ^ 53 := by
    refine roundEven_le (Nat.mul_pos hd hpos) ?_
    have h3 : n / d < 2 ^ (Nat.log2 (n / d) + 1) := Nat.lt_log2_self
    have h4 : 2 ^ (Nat.log2 (n / d) + 1) ≤ 2 ^ 53 * ulpOf n d := by
      rw [hu, ← Nat.pow_add]
      exact Nat.pow_le_pow_right (by decide) (by omega)
    have h5 : n / d < 2 ^ 53 * ulpOf n d := Nat.lt_of_lt_of_le h3 h4
    rw [Nat.div_lt_iff_lt_mul hd] at h5
    rw [Nat.mul_comm d, ← Nat.mul_assoc]
    exact Nat.le_of_lt h5
  have hbase : n / d ≠ 0 → 52 ≤ Nat.log2 (n / d) → 2 ^ Nat.log2 (n / d) = 2 ^ 52 * ulpOf n d := fun _ h52 => by
    rw [hu, ← Nat.pow_add]; congr 1; omega
  have hbn : n / d ≠ 0 → 2 ^ Nat.log2 (n / d) * d ≤ n := fun h0 => (Nat.le_div_iff_mul_le hd).1 (Nat.log2_self_le h0)
  have h00 : n / d = 0 → Nat.log2 (n / d) = 0 := fun h => by rw [h]; decide
  generalize hr : roundEven n (d * ulpOf n d) = r at *
  have hdouble : IsDouble (round53 n d) := by
    rw [hx]
    rcases Nat.lt_or_ge r (2 ^ 53) with h | h
    · exact ⟨r, _, h, by rw [hu]⟩
    · have : r = 2 ^ 53 := Nat.le_antisymm hr2 h
      refine ⟨2 ^ 52, Nat.log2 (n / d) - 52 + 1, by decide, ?_⟩
      rw [this, hu, ← Nat.pow_add, ← Nat.pow_add]; congr 1; omega
  have hevenD : r % 2 = 0 → EvenDouble (round53 n d) := by
    intro he
    rw [hx]
    rcases Nat.lt_or_ge r (2 ^ 53) with h | h
    · refine ⟨r, _, he, h, ?_, by rw [hu]⟩
      by_cases h52 : 52 ≤ Nat.log2 (n / d)
      · refine .inl (hr1 (fun h0 => ?_) h52)
        rw [h00 h0] at h52; omega
      · exact .inr (by omega)
    · have : r = 2 ^ 53 := Nat.le_antisymm hr2 h
      refine ⟨2 ^ 52, Nat.log2 (n / d) - 52 + 1, by decide, by decide, .inl (Nat.le_refl _), ?_⟩
      rw [this, hu, ← Nat.pow_add, ← Nat.pow_add]; congr 1; omega
  refine ⟨hdouble, fun y hy => ?_⟩
  generalize hLd : Nat.log2 (n / d) = L at *
  generalize hud : ulpOf n d = u at *
  -- multiples of the last place
  have hup : round53 n d < y → round53 n d + u ≤ y := by
    intro hlt
    have hm : ∃ c, y = c * u := by
      by_cases h52 : 52 < L
      · have h0 : n / d ≠ 0 := fun h0 => by have := h00 h0; omega
        obtain ⟨c, hc⟩ := double_multiple (L := L) hy (by
          rw [hbase h0 (by omega)]
          rw [hx] at hlt
          have := Nat.mul_le_mul_right u (hr1 h0 (by omega))
          omega)
        exact ⟨c, by rw [hc, hu]⟩
      · exact ⟨y, by rw [hu, Nat.sub_eq_zero_of_le (by omega), Nat.pow_zero, Nat.mul_one]⟩
    obtain ⟨c, rfl⟩ := hm
    rw [hx] at hlt ⊢
    have hc := Nat.lt_of_mul_lt_mul_right hlt
    have := Nat.mul_le_mul_right u hc
    rw [Nat.succ_mul] at this
    exact this
  have hdown : y < round53 n d → y + u ≤ round53 n d ∨ (round53 n d * d ≤ n ∧ r % 2 = 0) := by
    intro hlt
    by_cases h52 : 52 < L
    · have h0 : n / d ≠ 0 := fun h0 => by have := h00 h0; omega
      have hb := hbase h0 (by omega)
      have hr52 := hr1 h0 (by omega)
      by_cases hyb : 2 ^ L ≤ y
      · obtain ⟨c, hc⟩ := double_multiple (L := L) hy hyb
        rw [← hu] at hc
        subst hc
        rw [hx] at hlt ⊢
        have hc := Nat.lt_of_mul_lt_mul_right hlt
        have := Nat.mul_le_mul_right u hc
        rw [Nat.succ_mul] at this
        exact .inl this
      · by_cases he : r = 2 ^ 52
        · refine .inr ⟨?_, by rw [he]⟩
          rw [hx, he, ← hb]
          exact hbn h0
        · refine .inl ?_
          rw [hx]
          have := Nat.mul_le_mul_right u (by omega : 2 ^ 52 + 1 ≤ r)
          rw [Nat.add_mul, Nat.one_mul] at this
          omega
    · have : u = 1 := by rw [hu, Nat.sub_eq_zero_of_le (by omega), Nat.pow_zero]
      exact .inl (by omega)
  have htie : 2 * n = 2 * (round53 n d * d) + d * u ∨ 2 * (round53 n d * d) = 2 * n + d * u → r % 2 = 0 := by
    intro h
    refine heven.2.2 ?_
    have e1 : d * u * (2 * r) = 2 * (round53 n d * d) := by
      rw [hx]; simp only [Nat.mul_assoc, Nat.mul_comm, Nat.mul_left_comm]
    rw [Nat.mul_add, Nat.mul_one, e1]
    exact h
  generalize round53 n d = x at *
  have ed : ∀ z w, d * (z + w) = z * d + w * d := fun z w => by rw [Nat.mul_add, Nat.mul_comm, Nat.mul_comm d w]
  refine ⟨fun hlt => ?_, fun hlt => ?_, fun hne ht => ?_⟩
  · have := Nat.mul_le_mul_right d (hup hlt)
    rw [Nat.add_mul, Nat.mul_comm u] at this
    rw [ed]; omega
  · rcases hdown hlt with h | ⟨h, _⟩
    · have := Nat.mul_le_mul_right d h
      rw [Nat.add_mul, Nat.mul_comm u] at this
      rw [ed]; omega
    · have := Nat.mul_le_mul_right d (Nat.le_of_lt hlt)
      rw [ed]; omega
  · rw [ed] at ht
    refine hevenD ?_
    rcases Nat.lt_or_gt_of_ne hne with hlt | hlt
    · have := Nat.mul_le_mul_right d (hup hlt)
      rw [Nat.add_mul, Nat.mul_comm u] at this
      exact htie (.inl (by omega))
    · rcases hdown hlt with h | ⟨_, h⟩
      · have := Nat.mul_le_mul_right d h
        rw [Nat.add_mul, Nat.mul_comm u] at this
        exact htie (.inr (by omega))
      · exact h

/-- Two even doubles are not neighbours. -/
theorem even_between {x x' : Nat} (h : EvenDouble x) (h' : EvenDouble x') (hlt : x < x') : ∃ y, IsDouble y ∧ x < y ∧ y < x' := by
  obtain ⟨k, b, hk2, hk, hb, rfl⟩ := h
  obtain ⟨k', b', hk2', hk', hb', rfl⟩ := h'
  have hp := Nat.two_pow_pos b
  refine ⟨(k + 1) * 2 ^ b, ⟨k + 1, b, by omega, rfl⟩, Nat.mul_lt_mul_of_pos_right (by omega) hp, ?_⟩
  rcases Nat.lt_or_ge b' b with hlt' | hge
  · have hk52 : 2 ^ 52 ≤ k := by omega
    have h1 : 2 ^ 52 * 2 ^ b ≤ k * 2 ^ b := Nat.mul_le_mul_right _ hk52
    have h2 : k' * 2 ^ b' < 2 ^ 53 * 2 ^ b' := Nat.mul_lt_mul_of_pos_right hk' (Nat.two_pow_pos b')
    rw [← Nat.pow_add] at h1 h2
    have h3 : 2 ^ (53 + b') ≤ 2 ^ (52 + b) := Nat.pow_le_pow_right (by decide) (by omega)
    omega
  · have e : k' * 2 ^ b' = k' * 2 ^ (b' - b) * 2 ^ b := by rw [Nat.mul_assoc, ← Nat.pow_add, Nat.sub_add_cancel hge]
    rw [e] at hlt ⊢
    have h1 := Nat.lt_of_mul_lt_mul_right hlt
    refine Nat.mul_lt_mul_of_pos_right ?_ hp
    have h2 : k' * 2 ^ (b' - b) % 2 = 0 := by rw [Nat.mul_mod, hk2', Nat.zero_mul]
    omega

theorem nearestDouble_unique {n d x x' : Nat} (hd : 0 < d) (h : NearestDouble n d x) (h' : NearestDouble n d x') : x = x' := by
  have key : ∀ x x', NearestDouble n d x → NearestDouble n d x' → ¬ x < x' := by
    intro x x' h h' hlt
    obtain ⟨h1, _, h3⟩ := h.2 x' h'.1
    obtain ⟨_, h2', h3'⟩ := h'.2 x h.1
    have e : d * (x' + x) = d * (x + x') := by rw [Nat.add_comm]
    have ht : 2 * n = d * (x + x') := Nat.le_antisymm (h1 hlt) (by rw [← e]; exact h2' hlt)
    obtain ⟨y, hy, hxy, hyx⟩ := even_between (h3 (by omega) ht) (h3' (by omega) (by rw [e]; exact ht)) hlt
    have h4 := (h.2 y hy).1 hxy
    have h5 : d * (x + y) < d * (x + x') := Nat.mul_lt_mul_of_pos_left (by omega) hd
    omega
  have h1 := key x x' h h'
  have h2 := key x' x h' h
  omega

theorem round53_iff {n d x : Nat} (hd : 0 < d) : round53 n d = x ↔ NearestDouble n d x :=
  ⟨fun h => h ▸ nearestDouble_round53 hd, fun h => nearestDouble_unique hd (nearestDouble_round53 hd) h⟩

theorem f64Secs_iff {t : Str} {neg : Bool} {m : Nat} {e : Int} (h : DecimalText t neg m e) {d : Duration} :
    f64Secs t = some d ↔ DecimalTime neg m e d := by
  unfold DecimalTime
  have hex : (∃ x, NearestDouble (decNum m e * 2 ^ 1074) (decDen e) x ∧ NearestNat (x * 1000000000) (2 ^ 1074) d ∧
      (neg = true → x = 0) ∧ x ≤ 4294967295 * 2 ^ 1074) ↔
      (NearestNat (round53 (decNum m e * 2 ^ 1074) (decDen e) * 1000000000) (2 ^ 1074) d ∧
      (neg = true → round53 (decNum m e * 2 ^ 1074) (decDen e) = 0) ∧ round53 (decNum m e * 2 ^ 1074) (decDen e) ≤ 4294967295 * 2 ^ 1074) :=
    ⟨fun ⟨x, h1, h2⟩ => by rw [(round53_iff (decDen_pos e)).2 h1]; exact h2, fun h => ⟨_, nearestDouble_round53 (decDen_pos e), h⟩⟩
  rw [hex, ← nearestNat_iff (Nat.two_pow_pos 1074), f64Secs_of h]
  have hf := fromSecsF64_eq (round53 (decNum m e * 2 ^ 1074) (decDen e))
  rw [← hf]
  clear hf hex
  generalize round53 (decNum m e * 2 ^ 1074) (decDen e) = x
  generalize 4294967295 * 2 ^ 1074 = B
  cases neg with
  | true =>
    by_cases hx : x = 0
    · subst hx; simp
    · simp [hx]
  | false =>
    by_cases hx : x ≤ B
    · simp [hx]
    · simp [hx]

end Letmein
