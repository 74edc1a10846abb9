import Verif.Spec.Ip
import Verif.Model.FwWire

/-!
# Which texts are address literals

The texts that `Spec/Ip.lean` gives a meaning to, except for dotted numbers with superfluous zeros, which some programs read as octal.
-/

namespace Letmein.Spec

/-- No dotted number has a leading zero, other than the number zero itself. -/
def PlainOctets (s : List Char) : Prop := ∀ p ∈ pieces '.' s, 2 ≤ p.length → p.head? ≠ some '0'

/-- The text is a literal for the address. -/
inductive Literal : List Char → IpAddr → Prop
  | v4 {s : List Char} {a : Arr 4} : readIpv4 s = some a → PlainOctets s → Literal s (.v4 a)
  | v6 {s : List Char} {a : Arr 16} : readIpv6 s = some a → (∀ t ∈ pieces ':' s, '.' ∈ t → PlainOctets t) → Literal s (.v6 a)

end Letmein.Spec
