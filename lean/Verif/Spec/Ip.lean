import Verif.Model.Base

/-!
# What address literals mean

A reader of IPv4 and IPv6 address literals after RFC 4291, section 2.2, independent of the functions that print addresses.
-/

namespace Letmein.Spec

/-- Value of a digit of either case. -/
def hexValue (c : Char) : Option Nat := "0123456789abcdef".toList.idxOf? c <|> "0123456789ABCDEF".toList.idxOf? c

/-- Value of one more digit at the end of a numeral with value `n`. -/
def moreDigits (b : Nat) (n : Nat) (c : Char) : Option Nat :=
  match hexValue c with
  | some d => if d < b then some (n * b + d) else none
  | none => none

/-- Value of a positional numeral with at least one digit. -/
def numeralValue (b : Nat) (s : List Char) : Option Nat := if s = [] then none else s.foldlM (moreDigits b) 0

/-- The pieces between separators. -/
def pieces (sep : Char) : List Char → List (List Char)
  | [] => [[]]
  | c :: rest =>
    if c = sep then [] :: pieces sep rest
    else match pieces sep rest with
      | [] => [[c]]
      | p :: ps => (c :: p) :: ps

/-- A decimal number of one byte. -/
def readByte (s : List Char) : Option UInt8 :=
  match numeralValue 10 s with
  | some n => if n ≤ 255 then some (UInt8.ofNat n) else none
  | none => none

/-- Four decimal bytes with dots between them. -/
def readIpv4 (s : List Char) : Option (Arr 4) :=
  match (pieces '.' s).map readByte with
  | [some a, some b, some c, some d] => some ⟨[a, b, c, d], rfl⟩
  | _ => none

/-- A group: up to four hexadecimal digits, 16 bits. -/
def readGroup (s : List Char) : Option Bytes :=
  match numeralValue 16 s with
  | some n => if s.length ≤ 4 then some [UInt8.ofNat (n / 256), UInt8.ofNat (n % 256)] else none
  | none => none

/-- Groups; the last 32 bits may be written as an IPv4 address where `dotted` says so. -/
def readGroups (dotted : Bool) : List (List Char) → Option Bytes
  | [] => some []
  | [t] => if dotted && t.contains '.' then (readIpv4 t).map (·.val) else readGroup t
  | t :: ts =>
    match readGroup t, readGroups dotted ts with
    | some a, some b => some (a ++ b)
    | _, _ => none

/-- Groups with colons between them, possibly none. -/
def readHalf (dotted : Bool) (s : List Char) : Option Bytes := if s = [] then some [] else readGroups dotted (pieces ':' s)

/-- What is before and after the first double colon. -/
def splitGap : List Char → Option (List Char × List Char)
  | [] => none
  | c :: rest =>
    match c, rest with
    | ':', ':' :: after => some ([], after)
    | c, rest =>
      match splitGap rest with
      | some (l, r) => some (c :: l, r)
      | none => none

/-- Eight groups, or fewer with `::` for one or more groups of zeros. -/
def readIpv6 (s : List Char) : Option (Arr 16) :=
  match splitGap s with
  | none =>
    match readHalf true s with
    | some a => if h : a.length = 16 then some ⟨a, h⟩ else none
    | none => none
  | some (l, r) =>
    match readHalf false l, readHalf true r with
    | some a, some b =>
      if h : a.length + b.length ≤ 14 then some ⟨a ++ List.replicate (16 - a.length - b.length) 0 ++ b, by simp; omega⟩ else none
    | _, _ => none

/-- The examples of RFC 4291; the forms it calls wrong are not read. -/
example : readIpv6 "2001:DB8::8:800:200C:417A".toList = some ⟨[0x20, 1, 0xD, 0xB8, 0, 0, 0, 0, 0, 8, 8, 0, 0x20, 0xC, 0x41, 0x7A], rfl⟩ ∧
    readIpv6 "2001:db8:0:0:8:800:200c:417a".toList = readIpv6 "2001:DB8::8:800:200C:417A".toList ∧
    readIpv6 "FF01::101".toList = some ⟨[0xFF, 1, 0, 0, 0, 0, 0, 0, 0, 0, 0, 0, 0, 0, 1, 1], rfl⟩ ∧
    readIpv6 "::1".toList = some ⟨[0, 0, 0, 0, 0, 0, 0, 0, 0, 0, 0, 0, 0, 0, 0, 1], rfl⟩ ∧
    readIpv6 "::".toList = some ⟨[0, 0, 0, 0, 0, 0, 0, 0, 0, 0, 0, 0, 0, 0, 0, 0], rfl⟩ ∧
    readIpv6 "::FFFF:129.144.52.38".toList = some ⟨[0, 0, 0, 0, 0, 0, 0, 0, 0, 0, 0xFF, 0xFF, 129, 144, 52, 38], rfl⟩ ∧
    readIpv6 "1::2::3".toList = none ∧ readIpv6 "1:2:3:4:5:6:7".toList = none ∧ readIpv6 "12345::".toList = none ∧ readIpv6 "1.2.3.4::".toList = none ∧
    readIpv6 ":1:2:3:4:5:6:7".toList = none ∧ readIpv4 "129.144.52.38".toList = some ⟨[129, 144, 52, 38], rfl⟩ ∧ readIpv4 "1.2.3.256".toList = none ∧
    readIpv4 "1.2.3".toList = none ∧ readIpv4 "1.2..3".toList = none := by decide +kernel

end Letmein.Spec
