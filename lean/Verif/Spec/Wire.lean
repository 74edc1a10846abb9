/-!
# Specification of the wire formats

Written from `/repo/doc/PROTOCOL.md:3-100,190-240` (knock protocol) and the documentation comments
of `/repo/letmein-fwproto/src/lib.rs:134-163`. Independent of the model: it uses only lists of bytes
and natural numbers.
-/

namespace Letmein.Spec

/-- Big-endian representation of `v` in `n` bytes. -/
def be : Nat → Nat → List UInt8
  | 0, _ => []
  | n + 1, v => be n (v / 256) ++ [UInt8.ofNat v]

/-- The number a big-endian byte string denotes. -/
def beVal (b : List UInt8) : Nat := b.foldl (fun acc x => acc * 256 + x.toNat) 0

/-- The field table of PROTOCOL.md: 4+4+4+4+8+32 bytes. -/
def knockImage (op user resource : Nat) (salt auth : List UInt8) : List UInt8 :=
  be 4 0x3B1BB719 ++ be 4 op ++ be 4 user ++ be 4 resource ++ salt ++ auth

/-- The text authenticated by the MAC ("Generate AUTH token" of PROTOCOL.md). -/
def authText (op user resource : Nat) (salt challenge : List UInt8) : List UInt8 :=
  be 4 op ++ be 4 user ++ be 4 resource ++ salt ++ challenge

/-- Well-formed knock-protocol message, as a predicate on byte strings. -/
def KnockWellFormed (b : List UInt8) : Prop :=
  b.length = 56 ∧ beVal (b.take 4) = 0x3B1BB719 ∧ beVal ((b.drop 4).take 4) < 5

/-- Field table of the firewall daemon message: 2+2+2+2+16 bytes. -/
def fwImage (op portType port addrType : Nat) (addr : List UInt8) : List UInt8 :=
  be 2 op ++ be 2 portType ++ be 2 port ++ be 2 addrType ++ addr

/-- Well-formed firewall daemon message, as a predicate on byte strings. -/
def FwWellFormed (b : List UInt8) : Prop :=
  b.length = 24 ∧ beVal (b.take 2) < 3 ∧ beVal ((b.drop 2).take 2) < 3 ∧ beVal ((b.drop 6).take 2) < 2

end Letmein.Spec
