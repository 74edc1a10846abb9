import Verif.Model.StdText
import Verif.Model.FwWire

/-!
# The parser of address literals

Models `str::parse::<IpAddr>` of the standard library (`core::net::parser`) as it is used by `/repo/letmein/src/resolver.rs:75`,
`/repo/letmein/src/resolver.rs:80` and `/repo/letmein/src/resolver.rs:110`: the same readers of numbers, separators and groups, with the state of the
parser (the text left) passed along. A reader that fails leaves the state as it was (`read_atomically`); it has the value `none` here.
The library's parser works on the bytes of the text. All bytes that it accepts are ASCII, and a character that is not ASCII ends every reader
as its first byte does, so that characters are used here.
-/

namespace Letmein

/-- The loop of `Parser::read_number`: digits as far as they go, their value and their number; too many digits are an error.
Part of `/repo/letmein/src/resolver.rs:110`. -/
def readNumberLoop (radix maxDigits : Nat) : Nat → Nat → Str → Option (Nat × Nat × Str)
  | result, count, [] => some (result, count, [])
  | result, count, c :: s =>
    match toDigit radix c with
    | some d => if count + 1 > maxDigits then none else readNumberLoop radix maxDigits (result * radix + d) (count + 1) s
    | none => some (result, count, c :: s)

/-- `Parser::read_number` for a type with maximum `max`. Part of `/repo/letmein/src/resolver.rs:110`. -/
def readNumber (radix maxDigits max : Nat) (allowZeroPrefix : Bool) (s : Str) : Option (Nat × Str) :=
  match readNumberLoop radix maxDigits 0 0 s with
  | some (result, count, rest) =>
    if count = 0 then none
    else if !allowZeroPrefix && s.head? == some '0' && decide (count > 1) then none
    else if result ≤ max then some (result, rest)
    else none
  | none => none

/-- `Parser::read_given_char`. Part of `/repo/letmein/src/resolver.rs:110`. -/
def readGivenChar (c : Char) : Str → Option Str
  | x :: s => if x = c then some s else none
  | [] => none

/-- `Parser::read_separator`: the separator, except before the first item, and an item. Part of `/repo/letmein/src/resolver.rs:110`. -/
def readSeparator {α : Type} (sep : Char) (index : Nat) (inner : Str → Option (α × Str)) (s : Str) : Option (α × Str) :=
  if index > 0 then
    match readGivenChar sep s with
    | some s' => inner s'
    | none => none
  else inner s

/-- `Parser::read_ipv4_addr`, the loop over its four numbers unrolled. Part of `/repo/letmein/src/resolver.rs:110`. -/
def readIpv4Addr (s : Str) : Option (Arr 4 × Str) := do
  let octet := readNumber 10 3 255 false
  let (a, s) ← readSeparator '.' 0 octet s
  let (b, s) ← readSeparator '.' 1 octet s
  let (c, s) ← readSeparator '.' 2 octet s
  let (d, s) ← readSeparator '.' 3 octet s
  pure (⟨[UInt8.ofNat a, UInt8.ofNat b, UInt8.ofNat c, UInt8.ofNat d], rfl⟩, s)

/-- The two groups that an embedded IPv4 address makes up (`u16::from_be_bytes`). Part of `/repo/letmein/src/resolver.rs:110`. -/
def ipv4Groups (a : Arr 4) : List Nat :=
  match a.val with
  | [b0, b1, b2, b3] => [b0.toNat * 256 + b1.toNat, b2.toNat * 256 + b3.toNat]
  | _ => []

/-- The loop of `read_groups` in `Parser::read_ipv6_addr`, with `left` slots left from index `i` on: the groups read, whether they end in an
embedded IPv4 address, and the text left. Part of `/repo/letmein/src/resolver.rs:110`. -/
def readGroupsLoop (limit : Nat) : (left : Nat) → (i : Nat) → Str → List Nat × Bool × Str
  | 0, _, s => ([], false, s)
  | left + 1, i, s =>
    match (if i < limit - 1 then readSeparator ':' i readIpv4Addr s else none) with
    | some (a, s') => (ipv4Groups a, true, s')
    | none =>
      match readSeparator ':' i (readNumber 16 4 65535 true) s with
      | some (g, s') =>
        match readGroupsLoop limit left (i + 1) s' with
        | (gs, v4, rest) => (g :: gs, v4, rest)
      | none => ([], false, s)

/-- `Ipv6Addr::from([u16; 8])`: the octets of groups. Part of `/repo/letmein/src/resolver.rs:110`. -/
def groupOctets : List Nat → Bytes
  | [] => []
  | g :: rest => UInt8.ofNat (g / 256) :: UInt8.ofNat g :: groupOctets rest

/-- `Parser::read_ipv6_addr`; the result has 16 octets whenever the groups are eight, which they are. Part of `/repo/letmein/src/resolver.rs:110`. -/
def readIpv6Addr (s : Str) : Option (Arr 16 × Str) :=
  match readGroupsLoop 8 8 0 s with
  | (head, v4, s) =>
    if head.length = 8 then
      if h : (groupOctets head).length = 16 then some (⟨groupOctets head, h⟩, s) else none
    else if v4 then none
    else do
      let s ← readGivenChar ':' s
      let s ← readGivenChar ':' s
      let limit := 8 - (head.length + 1)
      match readGroupsLoop limit limit 0 s with
      | (tail, _, s) =>
        let all := head ++ List.replicate (8 - head.length - tail.length) 0 ++ tail
        if h : (groupOctets all).length = 16 then some (⟨groupOctets all, h⟩, s) else none

/-- `Parser::read_ip_addr`. Part of `/repo/letmein/src/resolver.rs:110`. -/
def readIpAddr (s : Str) : Option (IpAddr × Str) :=
  match readIpv4Addr s with
  | some (a, s') => some (.v4 a, s')
  | none =>
    match readIpv6Addr s with
    | some (a, s') => some (.v6 a, s')
    | none => none

/-- `str::parse::<IpAddr>` (`Parser::parse_with`): nothing may be left. `/repo/letmein/src/resolver.rs:75`, `/repo/letmein/src/resolver.rs:80`,
`/repo/letmein/src/resolver.rs:110`. -/
def parseIpAddr (s : Str) : Option IpAddr :=
  match readIpAddr s with
  | some (a, []) => some a
  | _ => none

end Letmein
