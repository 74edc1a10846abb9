import Verif.Model.Firewall

/-!
# The text handed to `nft`

Models the way from the commands of a batch to the standard input of `nft -j -f -`: `/repo/letmeinfwd/src/firewall/nftables.rs:332-343` calls
`Batch::to_nftables` and `apply_ruleset_with_args_async` of the crate `nftables`, which derives the names of the fields from the types of its schema
(those of libnftables-json(5)) and uses `serde_json::to_string`. Both are written down here after their documentation; only the values, fields and
variants that letmeinfwd uses are modelled.
-/

namespace Letmein

mutual
/-- The JSON values that occur in the text of `/repo/letmeinfwd/src/firewall/nftables.rs:332-343`: no fractions, negative numbers or booleans. -/
inductive Json where
  | null
  | num (n : Nat)
  | str (s : Str)
  | arr (l : JsonList)
  | obj (l : JsonFields)
/-- Elements of an array. Part of `/repo/letmeinfwd/src/firewall/nftables.rs:332-343`. -/
inductive JsonList where
  | nil
  | cons (v : Json) (l : JsonList)
/-- Members of an object, in order. Part of `/repo/letmeinfwd/src/firewall/nftables.rs:332-343`. -/
inductive JsonFields where
  | nil
  | cons (k : Str) (v : Json) (l : JsonFields)
end

/-- The elements of a list as an array's. -/
def JsonList.ofList : List Json → JsonList
  | [] => .nil
  | v :: l => .cons v (.ofList l)

/-- The members of a list as an object's. -/
def JsonFields.ofList : List (Str × Json) → JsonFields
  | [] => .nil
  | (k, v) :: l => .cons k v (.ofList l)

/-- A hexadecimal digit of an escape. Part of `/repo/letmeinfwd/src/firewall/nftables.rs:332-343`. -/
def jsonHex (n : Nat) : Char := digitLower n

/-- The escapes of `serde_json`: quote, backslash and the control characters; all other characters stand for themselves.
Part of `/repo/letmeinfwd/src/firewall/nftables.rs:332-343`. -/
def jsonChar (c : Char) : Str :=
  if c = '"' then ['\\', '"']
  else if c = '\\' then ['\\', '\\']
  else if c.toNat = 8 then ['\\', 'b']
  else if c.toNat = 9 then ['\\', 't']
  else if c.toNat = 10 then ['\\', 'n']
  else if c.toNat = 12 then ['\\', 'f']
  else if c.toNat = 13 then ['\\', 'r']
  else if c.toNat < 32 then ['\\', 'u', '0', '0', jsonHex (c.toNat / 16), jsonHex (c.toNat % 16)]
  else [c]

/-- A string in quotes. Part of `/repo/letmeinfwd/src/firewall/nftables.rs:332-343`. -/
def jsonString (s : Str) : Str := '"' :: ((s.map jsonChar).flatten ++ ['"'])

mutual
/-- `serde_json::to_string`: no white space. Part of `/repo/letmeinfwd/src/firewall/nftables.rs:332-343`. -/
def Json.show : Json → Str
  | .null => "null".toList
  | .num n => showNat n
  | .str s => jsonString s
  | .arr l => '[' :: (l.show ++ [']'])
  | .obj l => '{' :: (l.show ++ ['}'])
/-- Elements with commas between them. Part of `/repo/letmeinfwd/src/firewall/nftables.rs:332-343`. -/
def JsonList.show : JsonList → Str
  | .nil => []
  | .cons v .nil => v.show
  | .cons v l => v.show ++ ',' :: l.show
/-- Members with commas between them. Part of `/repo/letmeinfwd/src/firewall/nftables.rs:332-343`. -/
def JsonFields.show : JsonFields → Str
  | .nil => []
  | .cons k v .nil => jsonString k ++ ':' :: v.show
  | .cons k v l => jsonString k ++ ':' :: (v.show ++ ',' :: l.show)
end

/-- `NfFamily`, `serde(rename_all = "lowercase")`. Part of `/repo/letmeinfwd/src/firewall/nftables.rs:332-343`. -/
def NfFamily.json : NfFamily → Json
  | .INet => .str "inet".toList
  | .IP => .str "ip".toList
  | .IP6 => .str "ip6".toList

/-- An object. -/
def jsonObj (l : List (Str × Json)) : Json := .obj (.ofList l)

/-- `Match` of a `PayloadField` with the operator `==`, as built at `/repo/letmeinfwd/src/firewall/nftables.rs:88-97` and
`/repo/letmeinfwd/src/firewall/nftables.rs:106-115`. -/
def matchJson (protocol field : Str) (right : Json) : Json :=
  jsonObj [("match".toList, jsonObj [
    ("left".toList, jsonObj [("payload".toList, jsonObj [("protocol".toList, .str protocol), ("field".toList, .str field)])]),
    ("right".toList, right), ("op".toList, .str "==".toList)])]

/-- `Statement`. `/repo/letmeinfwd/src/firewall/nftables.rs:88-97`, `/repo/letmeinfwd/src/firewall/nftables.rs:106-115`,
`/repo/letmeinfwd/src/firewall/nftables.rs:119-121`. -/
def Stmt.json : Stmt → Json
  | .matchSaddr protocol addr => matchJson protocol "saddr".toList (.str addr)
  | .matchDport protocol port => matchJson protocol "dport".toList (.num port)
  | .accept => jsonObj [("accept".toList, .null)]

/-- `NfCmd`. A rule to be added has no handle, one to be deleted has no comment (`skip_serializing_if = "Option::is_none"`) and an empty expression.
`/repo/letmeinfwd/src/firewall/nftables.rs:150-158`, `/repo/letmeinfwd/src/firewall/nftables.rs:250-259`,
`/repo/letmeinfwd/src/firewall/nftables.rs:352-357`. -/
def NfCmd.json : NfCmd → Json
  | .add r =>
    jsonObj [("add".toList, jsonObj [("rule".toList, jsonObj ([("family".toList, r.family.json), ("table".toList, .str r.table),
      ("chain".toList, .str r.chain), ("expr".toList, .arr (.ofList (r.expr.map Stmt.json)))] ++
      match r.comment with
      | some c => [("comment".toList, .str c)]
      | none => []))])]
  | .delete family table chain handle =>
    jsonObj [("delete".toList, jsonObj [("rule".toList, jsonObj [("family".toList, family.json), ("table".toList, .str table),
      ("chain".toList, .str chain), ("expr".toList, .arr .nil), ("handle".toList, .num handle)])])]
  | .flush family table chain =>
    jsonObj [("flush".toList, jsonObj [("chain".toList, jsonObj [("family".toList, family.json), ("table".toList, .str table), ("name".toList, .str chain)])])]

/-- `/repo/letmeinfwd/src/firewall/nftables.rs:333-343` the text that the program `nft` reads. -/
def nftText (cmds : List NfCmd) : Str := (jsonObj [("nftables".toList, .arr (.ofList (cmds.map NfCmd.json)))]).show

end Letmein
