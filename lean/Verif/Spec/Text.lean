import Verif.Model.StdText

/-!
# Specification of numerals
-/

namespace Letmein.Spec

/-- `c` is the digit with value `d`, in lower or upper case. -/
def IsDigit (radix : Nat) (c : Char) (d : Nat) : Prop :=
  d < radix ∧ ("0123456789abcdefghijklmnopqrstuvwxyz".toList[d]? = some c ∨
    "0123456789ABCDEFGHIJKLMNOPQRSTUVWXYZ".toList[d]? = some c)

/-- The text is a positional numeral with this value. -/
inductive Numeral (radix : Nat) : Str → Nat → Prop
  | digit {c : Char} {d : Nat} : IsDigit radix c d → Numeral radix [c] d
  | snoc {s : Str} {n : Nat} {c : Char} {d : Nat} : Numeral radix s n → IsDigit radix c d → Numeral radix (s ++ [c]) (n * radix + d)

/-- A numeral that may have a plus sign in front. -/
def Number (radix : Nat) (s : Str) (n : Nat) : Prop := Numeral radix s n ∨ ∃ t, s = '+' :: t ∧ Numeral radix t n

/-- White space around `t` in `s`. -/
structure Trimmed (s t : Str) : Prop where
  around : ∃ a b, s = a ++ t ++ b ∧ (∀ c ∈ a, isWhitespace c = true) ∧ (∀ c ∈ b, isWhitespace c = true)
  first : ∀ c, t.head? = some c → isWhitespace c = false
  last : ∀ c, t.getLast? = some c → isWhitespace c = false

end Letmein.Spec
