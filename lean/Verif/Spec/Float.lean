import Verif.Spec.Conf

/-!
# Specification: numbers with fraction
-/

namespace Letmein.Spec

open Letmein

/-- An optional sign. -/
def SignText (s : Str) (neg : Bool) : Prop := (s = [] ∧ neg = false) ∨ (s = ['+'] ∧ neg = false) ∨ (s = ['-'] ∧ neg = true)

/-- An optional exponent. -/
def ExponentText (s : Str) (x : Int) : Prop :=
  (s = [] ∧ x = 0) ∨
  ∃ c sg neg ds n, s = c :: (sg ++ ds) ∧ (c = 'e' ∨ c = 'E') ∧ SignText sg neg ∧ Numeral 10 ds n ∧ x = if neg then -(n : Int) else (n : Int)

/-- The text is a decimal number, with optional sign, point and exponent: `± mant * 10^exp`. -/
def DecimalText (s : Str) (neg : Bool) (mant : Nat) (exp : Int) : Prop :=
  ∃ sg ip fr fp ep x, s = sg ++ (ip ++ (fr ++ ep)) ∧ SignText sg neg ∧ ((fr = [] ∧ fp = []) ∨ fr = '.' :: fp) ∧
    Numeral 10 (ip ++ fp) mant ∧ ExponentText ep x ∧ exp = x - (fp.length : Int)

/-- The numerator of `mant * 10^exp`. -/
def decNum (mant : Nat) (exp : Int) : Nat := mant * 10 ^ exp.toNat
/-- The denominator of `mant * 10^exp`. -/
def decDen (exp : Int) : Nat := 10 ^ (-exp).toNat

/-- The number of seconds is one that a configuration may contain: not more than `u32::MAX` seconds, or so little more that it cannot be
told apart (`2^-22` seconds); not negative, or not distinguishable from zero (`2^-1075`). -/
def TimeInRange (neg : Bool) (mant : Nat) (exp : Int) : Prop :=
  if neg then decNum mant exp * 2 ^ 1075 ≤ decDen exp
  else decNum mant exp * 2 ^ 22 ≤ decDen exp * (4294967295 * 2 ^ 22 + 1)

/-- The non-negative finite doubles, in units of `2^-1074`: 53 bits, shifted. (There is no upper limit here.) -/
def IsDouble (x : Nat) : Prop := ∃ k b, k < 2 ^ 53 ∧ x = k * 2 ^ b

/-- The last of the 53 bits of a double is zero. -/
def EvenDouble (x : Nat) : Prop := ∃ k b, k % 2 = 0 ∧ k < 2 ^ 53 ∧ (2 ^ 52 ≤ k ∨ b = 0) ∧ x = k * 2 ^ b

/-- `x` is the double nearest to `n / d`; if two are equally near, it is the even one. (`2 * n` is compared with `d * (x + y)`, that is
`n / d` with the middle of `x` and `y`.) -/
def NearestDouble (n d x : Nat) : Prop :=
  IsDouble x ∧ ∀ y, IsDouble y → (x < y → 2 * n ≤ d * (x + y)) ∧ (y < x → d * (x + y) ≤ 2 * n) ∧
    (x ≠ y → 2 * n = d * (x + y) → EvenDouble x)

/-- `x` is the whole number nearest to `n / d`; if two are equally near, it is the even one. -/
def NearestNat (n d x : Nat) : Prop := 2 * n ≤ d * (2 * x + 1) ∧ d * (2 * x) ≤ 2 * n + d ∧ (2 * n = d * (2 * x + 1) ∨ d * (2 * x) = 2 * n + d → x % 2 = 0)

/-- The time meant by a decimal number of seconds: the nearest double, and of that the nearest nanosecond. -/
def DecimalTime (neg : Bool) (mant : Nat) (exp : Int) (ns : Nat) : Prop :=
  ∃ x, NearestDouble (decNum mant exp * 2 ^ 1074) (decDen exp) x ∧ NearestNat (x * 1000000000) (2 ^ 1074) ns ∧
    (neg = true → x = 0) ∧ x ≤ 4294967295 * 2 ^ 1074

end Letmein.Spec
