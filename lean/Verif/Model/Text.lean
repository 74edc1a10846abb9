import Verif.Model.ConfTypes
import Verif.Model.FwWire

/-!
# Text primitives of the Rust standard library

Splitting, joining and number/address formatting used by several crates. The Rust standard library is not part of `/repo`;
these definitions follow its documentation, each names the places in `/repo` where it is used.
-/

namespace Letmein

/-- `str::split(c)` for a character `c` (always at least one piece).
Used at `/repo/letmein-conf/src/parse_items.rs:27,33,43`, `/repo/letmeinfwd/src/uid_gid.rs:17,36`. -/
def splitOn (c : Char) : Str → List Str
  | [] => [[]]
  | x :: xs =>
    if x = c then [] :: splitOn c xs
    else match splitOn c xs with
      | [] => [[x]] -- cannot occur
      | p :: ps => (x :: p) :: ps

/-- Joining pieces with a separator character. -/
def joinWith (c : Char) : List Str → Str
  | [] => []
  | [p] => p
  | p :: q :: ps => p ++ c :: joinWith c (q :: ps)

/-- Digits of the formatting macros, `{:x}` (lower case). -/
def digitLower (n : Nat) : Char := Char.ofNat (if n < 10 then 48 + n else 87 + n)
/-- Digits of the formatting macros, `{:X}` (upper case). -/
def digitUpper (n : Nat) : Char := Char.ofNat (if n < 10 then 48 + n else 55 + n)

/-- Number formatting in base `b` with at most `fuel` digits, no padding. -/
def showDigits (digit : Nat → Char) (b : Nat) : (fuel : Nat) → Nat → Str
  | 0, _ => []
  | fuel + 1, n => if n < b then [digit n] else showDigits digit b fuel (n / b) ++ [digit (n % b)]

/-- `{}` of an unsigned integer. -/
def showNat (n : Nat) : Str := showDigits digitLower 10 (n + 1) n
/-- `{:x}` of an unsigned integer. -/
def showHexLower (n : Nat) : Str := showDigits digitLower 16 (n + 1) n
/-- `{:X}` of an unsigned integer. -/
def showHexUpper (n : Nat) : Str := showDigits digitUpper 16 (n + 1) n

/-- `Display` of `Ipv4Addr`: `a.b.c.d`. Used at `/repo/letmeinfwd/src/firewall/nftables.rs:65,74`. -/
def showIpv4 (o : Arr 4) : Str := joinWith '.' (o.val.map (fun b => showNat b.toNat))

/-- `Ipv6Addr::segments`: eight big-endian 16 bit numbers. -/
def segments : Bytes → List Nat
  | a :: b :: rest => (a.toNat * 256 + b.toNat) :: segments rest
  | _ => []

/-- `Ipv6Addr::to_ipv4_mapped`: `::ffff:a.b.c.d`. Used at `/repo/letmeinfwd/src/firewall/nftables.rs:72`. -/
def toIpv4Mapped (o : Arr 16) : Option (Arr 4) :=
  if o.val.take 12 = [0, 0, 0, 0, 0, 0, 0, 0, 0, 0, 0xFF, 0xFF] then
    some ⟨o.val.drop 12, by simp [o.property]⟩
  else none

/-- State of the search for the longest run of zero segments in `Display` of `Ipv6Addr`:
index, current run (start, length), longest run (start, length). -/
def zeroRun : List Nat → Nat → Nat × Nat → Nat × Nat → Nat × Nat
  | [], _, _, longest => longest
  | s :: rest, i, cur, longest =>
    if s = 0 then
      let cur := ((if cur.2 = 0 then i else cur.1), cur.2 + 1)
      zeroRun rest (i + 1) cur (if cur.2 > longest.2 then cur else longest)
    else zeroRun rest (i + 1) (0, 0) longest

/-- `Display` of `Ipv6Addr`. Used at `/repo/letmeinfwd/src/firewall/nftables.rs:82,128`. -/
def showIpv6 (o : Arr 16) : Str :=
  match toIpv4Mapped o with
  | some a => "::ffff:".toList ++ showIpv4 a
  | none =>
    let segs := segments o.val
    let run := zeroRun segs 0 (0, 0) (0, 0)
    if run.2 > 1 then
      joinWith ':' ((segs.take run.1).map showHexLower) ++ "::".toList ++
        joinWith ':' ((segs.drop (run.1 + run.2)).map showHexLower)
    else joinWith ':' (segs.map showHexLower)

/-- The longest run of zeros is shortened, the first of several, none of length one (RFC 5952). -/
example : showIpv6 ⟨[0x20, 1, 0xD, 0xB8, 0, 0, 0, 1, 0, 1, 0, 1, 0, 1, 0, 1], rfl⟩ = "2001:db8:0:1:1:1:1:1".toList ∧
    showIpv6 ⟨[0x20, 1, 0xD, 0xB8, 0, 0, 0, 0, 0, 1, 0, 0, 0, 0, 0, 1], rfl⟩ = "2001:db8::1:0:0:1".toList ∧
    showIpv6 ⟨[0, 0, 0, 0, 0, 0, 0, 0, 0, 0, 0, 0, 0, 0, 0, 0], rfl⟩ = "::".toList ∧
    showIpv6 ⟨[0, 0, 0, 0, 0, 0, 0, 0, 0, 0, 0xFF, 0xFF, 10, 0, 0, 1], rfl⟩ = "::ffff:10.0.0.1".toList := by decide +kernel

/-- `Display` of `IpAddr`. -/
def showIp : IpAddr → Str
  | .v4 o => showIpv4 o
  | .v6 o => showIpv6 o

end Letmein
