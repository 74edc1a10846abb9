import Verif.Model.NftJson
import Verif.Spec.Firewall

/-!
# What a JSON text means

A reader after RFC 8259 for values without fractions, negative numbers and booleans (texts with those, or with escapes of surrogate pairs, are not read),
and a reader of the commands of libnftables-json(5). Members of objects are found by their names.
-/

namespace Letmein.Spec

/-- White space of RFC 8259. -/
def jsonWs (c : Char) : Bool := c = ' ' || c = '\t' || c = '\n' || c = '\r'

/-- The text without white space in front. -/
def skipWs (s : List Char) : List Char := s.dropWhile jsonWs

/-- Value of a hexadecimal digit of either case. -/
def hexDigit (c : Char) : Option Nat := "0123456789abcdef".toList.idxOf? c <|> "0123456789ABCDEF".toList.idxOf? c

/-- The character of an escape of four hexadecimal digits. -/
def unicodeEscape (a b c d : Char) : Option Char :=
  match hexDigit a, hexDigit b, hexDigit c, hexDigit d with
  | some a, some b, some c, some d =>
    let n := ((a * 16 + b) * 16 + c) * 16 + d
    if 0xD800 ≤ n ∧ n ≤ 0xDFFF then none else some (Char.ofNat n)
  | _, _, _, _ => none

/-- The character of an escape of one letter. -/
def letterEscape (c : Char) : Option Char :=
  if c = '"' ∨ c = '\\' ∨ c = '/' then some c
  else if c = 'b' then some (Char.ofNat 8)
  else if c = 'f' then some (Char.ofNat 12)
  else if c = 'n' then some (Char.ofNat 10)
  else if c = 'r' then some (Char.ofNat 13)
  else if c = 't' then some (Char.ofNat 9)
  else none

/-- One more character in front of what has been read. -/
def addChar (c : Option Char) (r : Option (List Char × List Char)) : Option (List Char × List Char) :=
  match c, r with
  | some c, some (s, rest) => some (c :: s, rest)
  | _, _ => none

/-- A string after its opening quote: the characters, and what follows the closing quote. -/
def readString : List Char → Option (List Char × List Char)
  | [] => none
  | '"' :: rest => some ([], rest)
  | '\\' :: 'u' :: a :: b :: c :: d :: rest => addChar (unicodeEscape a b c d) (readString rest)
  | '\\' :: e :: rest => addChar (letterEscape e) (readString rest)
  | c :: rest => if c.toNat < 32 then none else addChar (some c) (readString rest)

/-- A decimal digit. -/
def jsonDigit (c : Char) : Bool := 48 ≤ c.toNat && c.toNat ≤ 57

/-- A number: digits without superfluous zeros; no fraction or exponent may follow. -/
def readNum (s : List Char) : Option (Nat × List Char) :=
  let ds := s.takeWhile jsonDigit
  let rest := s.dropWhile jsonDigit
  if ds = [] ∨ (ds.head? = some '0' ∧ ds.length ≠ 1) then none
  else
    match rest.head? with
    | some c => if c = '.' ∨ c = 'e' ∨ c = 'E' then none else some (ds.foldl (fun n d => n * 10 + (d.toNat - 48)) 0, rest)
    | none => some (ds.foldl (fun n d => n * 10 + (d.toNat - 48)) 0, rest)

mutual
/-- A value; the first argument limits the depth of the recursion. -/
def readValue : Nat → List Char → Option (Json × List Char)
  | 0, _ => none
  | fuel + 1, s =>
    match skipWs s with
    | 'n' :: 'u' :: 'l' :: 'l' :: rest => some (.null, rest)
    | '"' :: rest => match readString rest with
      | some (t, rest) => some (.str t, rest)
      | none => none
    | '[' :: rest =>
      match skipWs rest with
      | ']' :: rest => some (.arr .nil, rest)
      | rest => match readElems fuel rest with
        | some (l, rest) => some (.arr l, rest)
        | none => none
    | '{' :: rest =>
      match skipWs rest with
      | '}' :: rest => some (.obj .nil, rest)
      | rest => match readMembers fuel rest with
        | some (l, rest) => some (.obj l, rest)
        | none => none
    | s => match readNum s with
      | some (n, rest) => some (.num n, rest)
      | none => none
/-- One or more elements up to the closing bracket. -/
def readElems : Nat → List Char → Option (JsonList × List Char)
  | 0, _ => none
  | fuel + 1, s =>
    match readValue fuel s with
    | some (v, rest) =>
      match skipWs rest with
      | ',' :: rest => match readElems fuel rest with
        | some (l, rest) => some (.cons v l, rest)
        | none => none
      | ']' :: rest => some (.cons v .nil, rest)
      | _ => none
    | none => none
/-- One or more members up to the closing brace. -/
def readMembers : Nat → List Char → Option (JsonFields × List Char)
  | 0, _ => none
  | fuel + 1, s =>
    match skipWs s with
    | '"' :: rest =>
      match readString rest with
      | some (k, rest) =>
        match skipWs rest with
        | ':' :: rest =>
          match readValue fuel rest with
          | some (v, rest) =>
            match skipWs rest with
            | ',' :: rest => match readMembers fuel rest with
              | some (l, rest) => some (.cons k v l, rest)
              | none => none
            | '}' :: rest => some (.cons k v .nil, rest)
            | _ => none
          | none => none
        | _ => none
      | none => none
    | _ => none
end

/-- A JSON text. -/
def readJson (s : List Char) : Option Json :=
  match readValue (4 * s.length + 4) s with
  | some (v, rest) => if skipWs rest = [] then some v else none
  | none => none

/-! ## Commands of libnftables-json(5) -/

/-- The value of the member with the name. -/
def fieldOf (k : List Char) : JsonFields → Option Json
  | .nil => none
  | .cons k' v l => if k' = k then some v else fieldOf k l

/-- The value of an object's member. -/
def member (k : String) : Json → Option Json
  | .obj l => fieldOf k.toList l
  | _ => none

/-- The member is a string. -/
def strMember (k : String) (v : Json) : Option (List Char) :=
  match member k v with
  | some (.str s) => some s
  | _ => none

/-- The member is a number. -/
def numMember (k : String) (v : Json) : Option Nat :=
  match member k v with
  | some (.num n) => some n
  | _ => none

/-- The family of an object. -/
def readFamily (v : Json) : Option NfFamily := do
  let s ← strMember "family" v
  if s = "inet".toList then some .INet else if s = "ip".toList then some .IP else if s = "ip6".toList then some .IP6 else none

/-- A statement: `accept`, or a comparison of a header field with a value. -/
def readStmt (v : Json) : Option Stmt :=
  match member "accept" v with
  | some .null => some .accept
  | some _ => none
  | none => do
    let m ← member "match" v
    let op ← strMember "op" m
    if op ≠ "==".toList then none
    else do
      let left ← member "left" m
      let payload ← member "payload" left
      let protocol ← strMember "protocol" payload
      let field ← strMember "field" payload
      if field = "saddr".toList then (strMember "right" m).map (.matchSaddr protocol)
      else if field = "dport".toList then (numMember "right" m).map (.matchDport protocol)
      else none

/-- All elements. -/
def readAll {α : Type} (f : Json → Option α) : JsonList → Option (List α)
  | .nil => some []
  | .cons v l =>
    match f v, readAll f l with
    | some a, some as => some (a :: as)
    | _, _ => none

/-- A command: adding or deleting a rule, or flushing a chain. -/
def readCmd (v : Json) : Option NfCmd :=
  match member "add" v, member "delete" v, member "flush" v with
  | some o, none, none => do
    let r ← member "rule" o
    let family ← readFamily r
    let table ← strMember "table" r
    let chain ← strMember "chain" r
    match member "expr" r with
    | some (.arr l) => do
      let expr ← readAll readStmt l
      match member "comment" r with
      | some (.str c) => some (.add ⟨family, table, chain, expr, some c⟩)
      | some _ => none
      | none => some (.add ⟨family, table, chain, expr, none⟩)
    | _ => none
  | none, some o, none => do
    let r ← member "rule" o
    let family ← readFamily r
    let table ← strMember "table" r
    let chain ← strMember "chain" r
    let handle ← numMember "handle" r
    some (.delete family table chain handle)
  | none, none, some o => do
    let c ← member "chain" o
    let family ← readFamily c
    let table ← strMember "table" c
    let chain ← strMember "name" c
    some (.flush family table chain)
  | _, _, _ => none

/-- What the text tells `nft` to do, one command after the other. -/
def readNft (s : List Char) : Option (List NfCmd) := do
  let v ← readJson s
  match member "nftables" v with
  | some (.arr l) => readAll readCmd l
  | _ => none

/-- The chain a command changes. -/
def cmdChain : NfCmd → NfFamily × List Char × List Char
  | .add r => (r.family, r.table, r.chain)
  | .delete f t c _ => (f, t, c)
  | .flush f t c => (f, t, c)

/-- The text adds a rule that accepts the packet. -/
def TextOpens (s : List Char) (pkt : Packet) : Prop :=
  ∃ cmds r, readNft s = some cmds ∧ NfCmd.add r ∈ cmds ∧ familySees r.family pkt.src = true ∧ ruleAccepts pkt r.expr = true

end Letmein.Spec
