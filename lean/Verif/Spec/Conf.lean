import Verif.Spec.Text
import Verif.Model.ConfTypes

/-!
# Specification of configuration files

What a configuration file means, as relations between texts and values, without reference to the parser's functions.
-/

namespace Letmein.Spec

/-! ## Lines -/

/-- The lines of a text: each ends with LF or CR LF, only the last may lack its end. -/
inductive TextLines : Str → List Str → Prop
  | nil : TextLines [] []
  | last {l : Str} : l ≠ [] → '\n' ∉ l → TextLines l [l]
  | lf {l s : Str} {ls : List Str} : '\n' ∉ l → l.getLast? ≠ some '\r' → TextLines s ls → TextLines (l ++ '\n' :: s) (l :: ls)
  | crlf {l s : Str} {ls : List Str} : '\n' ∉ l → TextLines s ls → TextLines (l ++ '\r' :: '\n' :: s) (l :: ls)

/-- Only white space. -/
def Blank (s : Str) : Prop := ∀ c ∈ s, isWhitespace c = true

/-- An empty line or a comment. -/
def IgnoredLine (l : Str) : Prop := Blank l ∨ ∃ w r, l = w ++ '#' :: r ∧ Blank w

/-- `[name]`. -/
def HeaderLine (l name : Str) : Prop := ∃ w w', l = w ++ '[' :: name ++ ']' :: w' ∧ Blank w ∧ Blank w' ∧ name ≠ []

/-- `name = value`: the name is neither empty nor surrounded by white space, does not contain `=` and does not begin like a comment
or a section; the value is everything after the equals sign. -/
def AssignLine (l name value : Str) : Prop :=
  ∃ w w', l = w ++ name ++ w' ++ '=' :: value ∧ Blank w ∧ Blank w' ∧ '=' ∉ name ∧
    (∃ c, name.head? = some c ∧ isWhitespace c = false ∧ c ≠ '#' ∧ c ≠ '[') ∧
    (∃ c, name.getLast? = some c ∧ isWhitespace c = false)

/-! ## Documents -/

/-- The lines between two section headers and their assignments, in order. -/
inductive SectionLines : List Str → List (Str × Str) → Prop
  | nil : SectionLines [] []
  | ignored {l : Str} {ls : List Str} {as : List (Str × Str)} : IgnoredLine l → SectionLines ls as → SectionLines (l :: ls) as
  | assign {l n v : Str} {ls : List Str} {as : List (Str × Str)} :
    AssignLine l n v → SectionLines ls as → SectionLines (l :: ls) ((n, v) :: as)

/-- The sections of a document with their assignments, in order. -/
abbrev Doc := List (Str × List (Str × Str))

/-- The lines of a document. -/
inductive DocLines : List Str → Doc → Prop
  | nil : DocLines [] []
  | ignored {l : Str} {ls : List Str} {d : Doc} : IgnoredLine l → DocLines ls d → DocLines (l :: ls) d
  | sect {l n : Str} {b ls : List Str} {as : List (Str × Str)} {d : Doc} :
    HeaderLine l n → SectionLines b as → DocLines ls d → DocLines (l :: b ++ ls) ((n, as) :: d)

/-- A well-formed file: no section occurs twice. -/
def IniText (s : Str) (d : Doc) : Prop := ∃ ls, TextLines s ls ∧ DocLines ls d ∧ (d.map (·.1)).Nodup

/-- The last of the assignments to a name. -/
def LastValue (as : List (Str × Str)) (n v : Str) : Prop := ∃ a b, as = a ++ (n, v) :: b ∧ ∀ e ∈ b, e.1 ≠ n

/-- The option `o` of the section `n` has the value `v`. -/
def Setting (d : Doc) (n o v : Str) : Prop := ∃ as, (n, as) ∈ d ∧ LastValue as o v

/-! ## Values -/

/-- `c` is the character `w` or its upper case. (The Kelvin sign is an upper case of `k`.) -/
def CaseVariant (c w : Char) : Prop :=
  c = w ∨ (∃ i : Nat, "abcdefghijklmnopqrstuvwxyz".toList[i]? = some w ∧ "ABCDEFGHIJKLMNOPQRSTUVWXYZ".toList[i]? = some c) ∨
    (w = 'k' ∧ c = '\u212a')

/-- Equality of words up to case. -/
inductive EqIgnoreCase : Str → Str → Prop
  | nil : EqIgnoreCase [] []
  | cons {c w : Char} {s t : Str} : CaseVariant c w → EqIgnoreCase s t → EqIgnoreCase (c :: s) (w :: t)

/-- The text is the word, in any case, surrounded by white space. -/
def WordText (s : Str) (w : String) : Prop := ∃ t, Trimmed s t ∧ EqIgnoreCase t w.toList

/-- Truth values. -/
def BoolText (s : Str) (b : Bool) : Prop :=
  if b then WordText s "true" ∨ WordText s "1" ∨ WordText s "yes" ∨ WordText s "on"
  else WordText s "false" ∨ WordText s "0" ∨ WordText s "no" ∨ WordText s "off"

/-- Error policies. -/
def PolicyText (s : Str) : ErrorPolicy → Prop
  | .Always => WordText s "always"
  | .BasicAuth => WordText s "basic-auth"
  | .FullAuth => WordText s "full-auth"

/-- Seccomp modes. -/
def SeccompText (s : Str) : Seccomp → Prop
  | .Off => WordText s "off"
  | .Log => WordText s "log"
  | .Kill => WordText s "kill"

/-- A decimal number or a hexadecimal one with the prefix `0x`, with white space around. -/
def NatText (s : Str) (n : Nat) : Prop := ∃ t, Trimmed s t ∧ (Number 10 t n ∨ ∃ h, t = '0' :: 'x' :: h ∧ Number 16 h n)

/-- The same without plus sign. -/
def PlainNatText (s : Str) (n : Nat) : Prop := ∃ t, Trimmed s t ∧ (Numeral 10 t n ∨ ∃ h, t = '0' :: 'x' :: h ∧ Numeral 16 h n)

/-- Identifiers: hexadecimal without prefix. -/
def IdText (s : Str) (x : UInt32) : Prop := ∃ t, Trimmed s t ∧ Number 16 t x.toNat

/-- Durations: whole seconds, or else (given by `f64`) a number of seconds with fraction. -/
def DurationText (f64 : Str → Option Duration) (s : Str) (d : Duration) : Prop :=
  (∃ n, NatText s n ∧ n < 2 ^ 32 ∧ d = n * 1000000000) ∨
    ((¬ ∃ n, NatText s n ∧ n < 2 ^ 32) ∧ ∃ t, Trimmed s t ∧ f64 t = some d)

/-- Pairs of hexadecimal digits and the bytes they denote. -/
inductive HexPairs : Str → Bytes → Prop
  | nil : HexPairs [] []
  | cons {a b : Char} {x y : Nat} {s : Str} {bs : Bytes} :
    IsDigit 16 a x → IsDigit 16 b y → HexPairs s bs → HexPairs (a :: b :: s) (UInt8.ofNat (16 * x + y) :: bs)

/-- Keys: 64 hexadecimal digits; neither all zeros nor all ones. -/
def KeyText (s : Str) (k : Key) : Prop :=
  (∃ t, Trimmed s t ∧ HexPairs t k.val) ∧ (∃ b ∈ k.val, b ≠ 0x00) ∧ (∃ b ∈ k.val, b ≠ 0xFF)

/-! ## Values with items -/

/-- The pieces of a text between separators. -/
inductive Pieces (c : Char) : Str → List Str → Prop
  | last {p : Str} : c ∉ p → Pieces c p [p]
  | cons {p s : Str} {ps : List Str} : c ∉ p → Pieces c s ps → Pieces c (p ++ c :: s) (p :: ps)

/-- `key: value`. -/
def KeyItem (item : Str) (key : String) (value : Str) : Prop :=
  ∃ k, item = k ++ ':' :: value ∧ ':' ∉ k ∧ Trimmed k key.toList

/-- One of the words, in an item that is a list of words. -/
def HasWord (items : List Str) (w : String) : Prop :=
  ∃ item ∈ items, ':' ∉ item ∧ ∃ ps, Pieces ',' item ps ∧ ∃ p ∈ ps, WordText p w

/-- A list of protocols. -/
def ProtoItem (item : Str) : Prop :=
  ':' ∉ item ∧ ∃ ps, Pieces ',' item ps ∧ ∀ p ∈ ps, WordText p "tcp" ∨ WordText p "udp"

/-- TCP and UDP as mentioned; TCP if nothing is mentioned. -/
def Protocols (items : List Str) (tcp udp : Bool) : Prop :=
  (tcp = true ↔ HasWord items "tcp" ∨ ¬ HasWord items "udp") ∧ (udp = true ↔ HasWord items "udp")

/-- A port number as an item of the control port. -/
def NumberItem (item : Str) (p : UInt16) : Prop := ':' ∉ item ∧ ',' ∉ item ∧ PlainNatText item p.toNat

/-- The control port: port numbers (the last one counts) and protocols. -/
def PortText (s : Str) (cp : ControlPort) : Prop :=
  ∃ items, Pieces '/' s items ∧
    (∀ item ∈ items, (∃ p, NumberItem item p) ∨ ProtoItem item) ∧
    ((∃ a item b, items = a ++ item :: b ∧ NumberItem item cp.port ∧ ∀ j ∈ b, ¬ ∃ p, NumberItem j p) ∨
      (cp.port = PORT ∧ ∀ j ∈ items, ¬ ∃ p, NumberItem j p)) ∧
    Protocols items cp.tcp cp.udp

/-- A list of identifiers. -/
inductive IdTexts : List Str → List UserId → Prop
  | nil : IdTexts [] []
  | cons {s : Str} {x : UInt32} {ss : List Str} {us : List UserId} : IdText s x → IdTexts ss us → IdTexts (s :: ss) (⟨x⟩ :: us)

/-- `port: number`. -/
def PortItem (item : Str) (p : UInt16) : Prop := ∃ v, KeyItem item "port" v ∧ NatText v p.toNat

/-- `users: id, id, ...`. -/
def UsersItem (item : Str) (us : List UserId) : Prop := ∃ v ps, KeyItem item "users" v ∧ Pieces ',' v ps ∧ IdTexts ps us

/-- A resource: exactly one port, at most one list of users, protocols. -/
def ResourceText (s : Str) (r : Resource) : Prop :=
  ∃ items, Pieces '/' s items ∧
    (∀ item ∈ items, (∃ p, PortItem item p) ∨ (∃ us, UsersItem item us) ∨ ProtoItem item) ∧
    (∃ a item b, items = a ++ item :: b ∧ PortItem item r.port ∧ ∀ j ∈ a ++ b, ¬ ∃ v, KeyItem j "port" v) ∧
    ((∃ a item b, items = a ++ item :: b ∧ UsersItem item r.users ∧ ∀ j ∈ a ++ b, ¬ ∃ v, KeyItem j "users" v) ∨
      (r.users = [] ∧ ∀ j ∈ items, ¬ ∃ v, KeyItem j "users" v)) ∧
    Protocols items r.tcp r.udp

/-! ## Configurations -/

/-- The option's value, or the default. -/
def Given {α : Type} (d : Doc) (n o : String) (P : Str → α → Prop) (dflt : α) (x : α) : Prop :=
  (∃ v, Setting d n.toList o.toList v ∧ P v x) ∨ ((¬ ∃ v, Setting d n.toList o.toList v) ∧ x = dflt)

/-- Address families of nftables, with white space around. -/
def FamilyText (s t : Str) : Prop := Trimmed s t ∧ (t = "inet".toList ∨ t = "ip".toList ∨ t = "ip6".toList)

/-- The keys of a document: every entry is valid, and no two entries define the same user. -/
structure KeysOf (d : Doc) (keys : UserId → Option Key) : Prop where
  valid : ∀ n v, Setting d "KEYS".toList n v → ∃ x k, IdText n x ∧ KeyText v k
  distinct : ∀ n v n' v' x, Setting d "KEYS".toList n v → Setting d "KEYS".toList n' v' → IdText n x → IdText n' x → n = n'
  keys : ∀ u k, keys u = some k ↔ ∃ n v, Setting d "KEYS".toList n v ∧ IdText n u.raw ∧ KeyText v k

/-- The resources of a document: every entry is valid, and no two entries define the same resource or the same port. -/
structure ResourcesOf (d : Doc) (ress : ResourceId → Option Resource) : Prop where
  valid : ∀ n v, Setting d "RESOURCES".toList n v → ∃ x r, IdText n x ∧ ResourceText v r
  distinct : ∀ n v n' v' x, Setting d "RESOURCES".toList n v → Setting d "RESOURCES".toList n' v' → IdText n x → IdText n' x → n = n'
  ports : ∀ n v n' v' r r', Setting d "RESOURCES".toList n v → Setting d "RESOURCES".toList n' v' → ResourceText v r →
    ResourceText v' r' → r.port = r'.port → n = n'
  resources : ∀ id r, ress id = some r ↔ ∃ n v, Setting d "RESOURCES".toList n v ∧ IdText n id.raw ∧ ResourceText v r

/-- The configuration a document describes. -/
structure ConfOf (f64 : Str → Option Duration) (d : Doc) (c : Config) : Prop where
  debug : Given d "GENERAL" "debug" BoolText false c.debug
  port : Given d "GENERAL" "port" PortText { port := PORT, tcp := true, udp := false } c.port
  controlTimeout : Given d "GENERAL" "control-timeout" (DurationText f64) 5000000000 c.controlTimeout
  controlErrorPolicy : Given d "GENERAL" "control-error-policy" PolicyText .Always c.controlErrorPolicy
  seccomp : Given d "GENERAL" "seccomp" SeccompText .Off c.seccomp
  keys : KeysOf d c.key
  keysNodup : (c.keys.map (·.1)).Nodup
  resources : ResourcesOf d c.resource
  resourcesNodup : (c.resources.map (·.1)).Nodup
  defaultUser : if c.variant = .Client then Given d "CLIENT" "default-user" (fun s u => IdText s u.raw) (⟨0⟩ : UserId) c.defaultUser
    else c.defaultUser = ⟨0⟩
  nftExe : if c.variant = .Server then Given d "NFTABLES" "exe" Trimmed "nft".toList c.nftExe else c.nftExe = []
  nftFamily : if c.variant = .Server then Given d "NFTABLES" "family" FamilyText [] c.nftFamily else c.nftFamily = []
  nftTable : if c.variant = .Server then Given d "NFTABLES" "table" Trimmed [] c.nftTable else c.nftTable = []
  nftChainInput : if c.variant = .Server then Given d "NFTABLES" "chain-input" Trimmed [] c.nftChainInput else c.nftChainInput = []
  nftTimeout : if c.variant = .Server then Given d "NFTABLES" "timeout" (DurationText f64) 600000000000 c.nftTimeout
    else c.nftTimeout = 600000000000

end Letmein.Spec
