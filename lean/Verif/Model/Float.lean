import Verif.Model.Conf

/-!
# Numbers with fraction: `str::parse::<f64>` and `Duration::from_secs_f64`

Not part of `/repo`, written after the standard library's documentation: the grammar given there for `f64::from_str`, rounding to the
nearest double (ties to even) and rounding to the nearest nanosecond (ties to even). Used at `/repo/letmein-conf/src/parse.rs:40-48,80-83`.

A non-negative double is represented by the natural number of units of `2^-1074` it consists of. Infinity and NaN do not occur: the
texts `inf`, `infinity` and `nan` parse, but are refused by `/repo/letmein-conf/src/parse.rs:43`, and so is a number that rounds to
infinity; here they are refused as texts or as larger than `u32::MAX`. Simplification: the implementation stops reading the digits of
an exponent when it exceeds 65536; here it is taken as it is.
-/

namespace Letmein

/-- A sign in front. -/
def stripSign : Str → Bool × Str
  | [] => (false, [])
  | c :: rest => if c = '+' then (false, rest) else if c = '-' then (true, rest) else (false, c :: rest)

/-- The value of a text of decimal digits. -/
def decValue (s : Str) : Nat := s.foldl (fun n c => n * 10 + (c.toNat - 48)) 0

/-- The exponent of `f64::from_str`: nothing, or `e`, a sign and at least one digit. -/
def parseExponent : Str → Option Int
  | [] => some 0
  | c :: rest =>
    if c = 'e' ∨ c = 'E' then
      let sg := stripSign rest
      if sg.2 ≠ [] ∧ sg.2.all isAsciiDigit = true then some (if sg.1 then -(decValue sg.2 : Int) else (decValue sg.2 : Int)) else none
    else none

/-- A decimal number: `(-1)^neg * mant * 10^exp`. -/
structure Decimal where
  neg : Bool
  mant : Nat
  exp : Int
  deriving DecidableEq, Repr

/-- The grammar of `f64::from_str`, without infinities and NaN: a sign, digits, a point and digits (at least one digit in all), an exponent. -/
def parseDecimal (s : Str) : Option Decimal :=
  let sg := stripSign s
  let ip := sg.2.takeWhile isAsciiDigit
  let r := sg.2.dropWhile isAsciiDigit
  let point := r.head? = some '.'
  let fp := if point then r.tail.takeWhile isAsciiDigit else []
  let ep := if point then r.tail.dropWhile isAsciiDigit else r
  if (ip ++ fp).isEmpty then none
  else match parseExponent ep with
    | none => none
    | some x => some { neg := sg.1, mant := decValue (ip ++ fp), exp := x - fp.length }

/-- The numerator of the absolute value. -/
def Decimal.num (d : Decimal) : Nat := d.mant * 10 ^ d.exp.toNat
/-- The denominator of the absolute value. -/
def Decimal.den (d : Decimal) : Nat := 10 ^ (-d.exp).toNat

/-- Rounding a fraction to the nearest integer, ties to even. -/
def roundEven (n d : Nat) : Nat :=
  if 2 * (n % d) < d then n / d
  else if d < 2 * (n % d) then n / d + 1
  else if n / d % 2 = 0 then n / d else n / d + 1

/-- Rounding a fraction to the nearest double, in units of `2^-1074`: 53 significant bits, but no fraction of a unit. -/
def toDouble (num den : Nat) : Nat :=
  let ulp := 2 ^ (Nat.log2 (num * 2 ^ 1074 / den) - 52)
  roundEven (num * 2 ^ 1074) (den * ulp) * ulp

/-- `Duration::from_secs_f64`. -/
def fromSecsF64 (x : Nat) : Duration := roundEven (x * 1000000000) (2 ^ 1074)

/-- `/repo/letmein-conf/src/parse.rs:40-48,80-84` `parse_f64` of a trimmed text and its use in `parse_duration`. (`-0.0 >= 0.0` holds.) -/
def f64Secs : F64Secs := fun s =>
  match parseDecimal s with
  | none => none
  | some d =>
    let x := toDouble d.num d.den
    if d.neg = true ∧ x ≠ 0 then none
    else if x ≤ 0xFFFFFFFF * 2 ^ 1074 then some (fromSecsF64 x)
    else none

end Letmein
