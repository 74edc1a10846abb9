import Verif.Model.Text

/-!
# Text primitives of the Rust standard library: white space, lines, numbers

Like `Verif.Model.Text`: not part of `/repo`, written after the standard library's documentation; each
definition names its uses in `/repo`.
-/

namespace Letmein

/-- `char::is_whitespace`: the Unicode property White_Space. -/
def isWhitespace (c : Char) : Bool :=
  let n := c.toNat
  (9 ≤ n && n ≤ 13) || n = 0x20 || n = 0x85 || n = 0xA0 || n = 0x1680 || (0x2000 ≤ n && n ≤ 0x200A) ||
    n = 0x2028 || n = 0x2029 || n = 0x202F || n = 0x205F || n = 0x3000

/-- `str::trim_start`. Used at `/repo/letmein-conf/src/ini.rs:98`. -/
def trimStart (s : Str) : Str := s.dropWhile isWhitespace
/-- `str::trim_end`. Used at `/repo/letmein-conf/src/ini.rs:107,131`. -/
def trimEnd (s : Str) : Str := (s.reverse.dropWhile isWhitespace).reverse
/-- `str::trim`. Used all over `/repo/letmein-conf/src/parse.rs`, `/repo/letmein-conf/src/parse_items.rs:34,44,47,51`,
`/repo/letmein-proto/src/lib.rs:93`, `/repo/letmeinfwd/src/server.rs:39`. -/
def trim (s : Str) : Str := trimEnd (trimStart s)

/-- One line of `str::lines`: the text up to a line feed, with a carriage return before the line feed removed. -/
def stripCr (s : Str) : Str := if s.getLast? = some '\r' then s.dropLast else s

/-- `str::lines`. Used at `/repo/letmein-conf/src/ini.rs:97`, `/repo/letmeinfwd/src/uid_gid.rs:16,35`.
The last line counts only if not empty, and keeps its carriage return if no line feed follows. `cur` is the line so far. -/
def linesFrom : Str → Str → List Str
  | cur, [] => if cur.isEmpty then [] else [cur]
  | cur, c :: rest => if c = '\n' then stripCr cur :: linesFrom [] rest else linesFrom (cur ++ [c]) rest

/-- `str::lines`. -/
def lines (s : Str) : List Str := linesFrom [] s

/-- `str::to_lowercase`, as far as it matters: all uses (`/repo/letmein-conf/src/lib.rs:144,190,226,336`,
`/repo/letmein-conf/src/parse.rs:13`) compare the result with words of ASCII letters. The only characters besides `A`-`Z` whose
lower case is ASCII are the Kelvin sign and (with a non-ASCII remainder, so that no comparison succeeds) `İ`. -/
def lowerChar (c : Char) : Char :=
  if 65 ≤ c.toNat ∧ c.toNat ≤ 90 then Char.ofNat (c.toNat + 32)
  else if c.toNat = 0x212A then 'k'
  else c

/-- `str::to_lowercase`, see `lowerChar`. -/
def toLowercase (s : Str) : Str := s.map lowerChar

/-- `char::to_digit`. -/
def toDigit (radix : Nat) (c : Char) : Option Nat :=
  let n := c.toNat
  let d := if 48 ≤ n ∧ n ≤ 57 then some (n - 48)
    else if 97 ≤ n ∧ n ≤ 122 then some (n - 87)
    else if 65 ≤ n ∧ n ≤ 90 then some (n - 55)
    else none
  match d with
  | some d => if d < radix then some d else none
  | none => none

/-- The loop of `from_str_radix`: multiply, add, fail on overflow. -/
def parseDigits (radix max : Nat) : Nat → Str → R Nat
  | acc, [] => .ok acc
  | acc, c :: rest =>
    match toDigit radix c with
    | none => .err
    | some d => if acc * radix + d > max then .err else parseDigits radix max (acc * radix + d) rest

/-- `from_str_radix` of an unsigned integer type with maximum `max` (also `str::parse`, with radix 10): a leading `+` is accepted,
an empty string or a sole sign is not. Used at `/repo/letmein-conf/src/parse.rs:25,27,34,36,52`,
`/repo/letmein-proto/src/lib.rs:93`, `/repo/letmeinfwd/src/uid_gid.rs:24,43`. -/
def fromStrRadix (radix max : Nat) (s : Str) : R Nat :=
  match s with
  | [] => .err
  | [c] => if c = '+' ∨ c = '-' then .err else parseDigits radix max 0 [c]
  | c :: rest => if c = '+' then parseDigits radix max 0 rest else parseDigits radix max 0 (c :: rest)

/-- `str::parse::<u32>`. -/
def parseU32Dec (s : Str) : R UInt32 := do
  let n ← fromStrRadix 10 0xFFFFFFFF s
  .ok (UInt32.ofNat n)

/-- `str::parse::<i32>`: also accepts a leading `-`. Used at `/repo/letmeinfwd/src/server.rs:40` (`pid_t` is `i32`). -/
def parseI32 (s : Str) : R Int :=
  match s with
  | '-' :: c :: rest => do
    let n ← parseDigits 10 0x80000000 0 (c :: rest)
    .ok (-(n : Int))
  | _ => do
    let n ← fromStrRadix 10 0x7FFFFFFF s
    .ok (n : Int)

/-- `str::splitn(n, c)`: at most `n` pieces, the last one is the unsplit remainder.
Used at `/repo/letmeinfwd/src/uid_gid.rs:17,36`. -/
def splitN (c : Char) : Nat → Str → List Str
  | 0, _ => []
  | 1, s => [s]
  | n + 2, s =>
    match s.findIdx? (fun x => decide (x = c)) with
    | none => [s]
    | some i => s.take i :: splitN c (n + 1) (s.drop (i + 1))

end Letmein
