import Verif.Model.StdText
import Verif.Model.Udp

/-!
# The configuration file: `/repo/letmein-conf/src/{parse,parse_items,ini,lib}.rs`

Value parsers, the `.ini` parser and the construction of a `Config`.

Simplifications: error texts are not modelled; positions in strings are counted in characters, not in UTF-8 bytes (all
characters searched for are ASCII, so that all byte positions used are character boundaries); floating-point numbers are a
parameter (`F64Secs`); reading the file is an input (`FileContent`).
-/

namespace Letmein

/-! ## `/repo/letmein-proto/src/lib.rs`: identifiers as text -/

/-- Formatting with a minimum width: zeros in front. -/
def padZeros (width : Nat) (s : Str) : Str := List.replicate (width - s.length) '0' ++ s

/-- `/repo/letmein-proto/src/lib.rs:83-87` `Display` of `UserId` and `ResourceId`: `{:08X}`. -/
def showId (x : UInt32) : Str := padZeros 8 (showHexUpper x.toNat)

/-- `/repo/letmein-proto/src/lib.rs:89-95` `FromStr` of `UserId` and `ResourceId`. -/
def parseId (s : Str) : R UInt32 := do
  let n ← fromStrRadix 16 0xFFFFFFFF (trim s)
  .ok (UInt32.ofNat n)

/-! ## `/repo/letmein-conf/src/parse.rs` -/

/-- `str::strip_prefix`. -/
def stripPrefix (p s : Str) : Option Str := if p.isPrefixOf s then some (s.drop p.length) else none

/-- `/repo/letmein-conf/src/parse.rs:12-20` `parse_bool`. -/
def parseBool (s : Str) : R Bool :=
  let t := trim (toLowercase s)
  if t = "true".toList ∨ t = "1".toList ∨ t = "yes".toList ∨ t = "on".toList then .ok true
  else if t = "false".toList ∨ t = "0".toList ∨ t = "no".toList ∨ t = "off".toList then .ok false
  else .err

/-- `/repo/letmein-conf/src/parse.rs:22-29,31-38` the common shape of `parse_u16` and `parse_u32`. -/
def parseUInt (max : Nat) (s : Str) : R Nat :=
  let t := trim s
  match stripPrefix "0x".toList t with
  | some h => fromStrRadix 16 max h
  | none => fromStrRadix 10 max t

/-- `/repo/letmein-conf/src/parse.rs:22-29` `parse_u16`. -/
def parseU16 (s : Str) : R UInt16 := do
  let n ← parseUInt 0xFFFF s
  .ok (UInt16.ofNat n)

/-- `/repo/letmein-conf/src/parse.rs:31-38` `parse_u32`. -/
def parseU32 (s : Str) : R Nat := parseUInt 0xFFFFFFFF s

/-- `/repo/letmein-conf/src/parse.rs:50-53` `parse_hexdigit`. -/
def parseHexdigit (s : Str) : R Nat := do
  rassert (s.length = 1)
  fromStrRadix 16 0xFF s

/-- `/repo/letmein-conf/src/parse.rs:68-71` the loop of `parse_hex`: two characters make a byte. -/
def parseHexPairs : Str → R Bytes
  | a :: b :: rest => do
    let hi ← parseHexdigit [a]
    let lo ← parseHexdigit [b]
    let bs ← parseHexPairs rest
    .ok (UInt8.ofNat (hi * 16 + lo) :: bs)
  | _ => .ok []

/-- `/repo/letmein-conf/src/parse.rs:55-74` `parse_hex`. (`hi << 4` of a digit below 16 loses nothing, and `|=` of a smaller
digit adds it.) -/
def parseHex (size : Nat) (s : Str) : R (Arr size) :=
  let t := trim s
  if ¬ t.all (fun c => decide (c.toNat < 128)) then .err
  else if t.length ≠ size * 2 then .err
  else
    match parseHexPairs t with
    | .ok bs => if h : bs.length = size then .ok ⟨bs, h⟩ else .panic
    | .err => .err
    | .panic => .panic

/-- What `str::parse::<f64>` makes of a text, as far as `parse_duration` uses it: `some d` if the text denotes a finite number
between 0 and `u32::MAX` and `Duration::from_secs_f64` of it is `d`. -/
abbrev F64Secs := Str → Option Duration

/-- `/repo/letmein-conf/src/parse.rs:40-48,76-86` `parse_duration` with `parse_f64`. -/
def parseDuration (f64 : F64Secs) (s : Str) : R Duration :=
  match parseU32 s with
  | .ok secs => .ok (secs * 1000000000)
  | _ =>
    match f64 (trim s) with
    | some d => .ok d
    | none => .err

/-- `char::is_ascii_digit`. -/
def isAsciiDigit (c : Char) : Bool := 48 ≤ c.toNat && c.toNat ≤ 57
/-- `char::is_ascii_hexdigit`. -/
def isAsciiHexdigit (c : Char) : Bool :=
  isAsciiDigit c || (65 ≤ c.toNat && c.toNat ≤ 70) || (97 ≤ c.toNat && c.toNat ≤ 102)

/-- `/repo/letmein-conf/src/parse.rs:89-96` `is_number`. -/
def isNumber (s : Str) : Bool :=
  let t := trim s
  match stripPrefix "0x".toList t with
  | some h => h.all isAsciiHexdigit
  | none => t.all isAsciiDigit

/-! ## `/repo/letmein-conf/src/parse_items.rs` -/

/-- `/repo/letmein-conf/src/parse_items.rs:12-16` `MapItem`. -/
inductive MapItem where
  | KeyValue (k v : Str)
  | KeyValues (k : Str) (vs : List Str)
  | Values (vs : List Str)
  deriving DecidableEq

/-- `/repo/letmein-conf/src/parse_items.rs:29-52` one item. -/
def parseItem (item : Str) : R MapItem :=
  match item.findIdx? (fun c => decide (c = ':')) with
  | some idx =>
    if idx < 1 then .err
    else
      let key := trim (item.take idx)
      if key.isEmpty then .err
      else
        let value := item.drop (idx + 1)
        if value.contains ',' then .ok (.KeyValues key ((splitOn ',' value).map trim))
        else .ok (.KeyValue key (trim value))
  | none => .ok (.Values ((splitOn ',' item).map trim))

/-- The loop over the items: the first error ends it. -/
def parseItems : List Str → R (List MapItem)
  | [] => .ok []
  | p :: ps => do
    let i ← parseItem p
    let is ← parseItems ps
    .ok (i :: is)

/-- `/repo/letmein-conf/src/parse_items.rs:25-56` `Map::from_str`. -/
def parseMap (s : Str) : R (List MapItem) := parseItems (splitOn '/' s)

/-! ## `/repo/letmein-conf/src/ini.rs` -/

/-- `/repo/letmein-conf/src/ini.rs:20-22,46-48` `Ini` with its sections: maps from names to values. -/
structure Ini where
  sections : List (Str × List (Str × Str))

/-- `/repo/letmein-conf/src/ini.rs:95-96` the state of the parser's loop. -/
structure IniState where
  sections : List (Str × List (Str × Str))
  inSection : Option Str

/-- `/repo/letmein-conf/src/ini.rs:97-146` one line. -/
def iniLine (st : IniState) (raw : Str) : R IniState :=
  let line := trimStart raw
  if line.isEmpty then .ok st
  else if line.head? = some '#' then .ok st
  else if line.head? = some '[' then
    let line := trimEnd line
    if line.getLast? = some ']' then
      let sname := (line.drop 1).dropLast
      if sname.isEmpty then .err
      else if (assocGet st.sections sname).isSome then .err
      else .ok { sections := assocSet st.sections sname [], inSection := some sname }
    else .err
  else
    match st.inSection with
    | none => .err
    | some sect =>
      match line.findIdx? (fun c => decide (c = '=')) with
      | none => .err
      | some idx =>
        if idx ≥ 1 then
          let name := trimEnd (line.take idx)
          let value := line.drop (idx + 1)
          match assocGet st.sections sect with
          | none => .panic
          | some opts => .ok { st with sections := assocSet st.sections sect (assocSet opts name value) }
        else .err

/-- The loop over the lines. -/
def iniLines : IniState → List Str → R IniState
  | st, [] => .ok st
  | st, l :: ls => do
    let st ← iniLine st l
    iniLines st ls

/-- `/repo/letmein-conf/src/ini.rs:94-150` `Ini::parse_str` of a new `Ini`. -/
def Ini.parseStr (content : Str) : R Ini := do
  let st ← iniLines { sections := [], inSection := none } (lines content)
  .ok { sections := st.sections }

/-- `/repo/letmein-conf/src/ini.rs:153-160` `Ini::get`. -/
def Ini.get (ini : Ini) (sect opt : Str) : Option Str := do
  let opts ← assocGet ini.sections sect
  assocGet opts opt

/-- `/repo/letmein-conf/src/ini.rs:163-165` `Ini::options_iter`, in some order: the caller reorders. -/
def Ini.optionsIter (ini : Ini) (sect : Str) : Option (List (Str × Str)) := assocGet ini.sections sect

/-- What is found at the path of the configuration file. `Ini::new_from_file` fails unless it is readable and UTF-8
(`/repo/letmein-conf/src/ini.rs:58-88`). -/
inductive FileContent where
  | missing
  | unreadable
  | notUtf8
  | text (s : Str)
  deriving DecidableEq

/-- `/repo/letmein-conf/src/ini.rs:58-88` `Ini::new_from_file`. -/
def Ini.newFromFile : FileContent → R Ini
  | .text s => Ini.parseStr s
  | _ => .err

/-! ## `/repo/letmein-conf/src/lib.rs` -/

/-- `/repo/letmein-conf/src/lib.rs:139-153` `ErrorPolicy::from_str`. -/
def ErrorPolicy.fromStr (s : Str) : R ErrorPolicy :=
  let t := trim (toLowercase s)
  if t = "always".toList then .ok .Always
  else if t = "basic-auth".toList then .ok .BasicAuth
  else if t = "full-auth".toList then .ok .FullAuth
  else .err

/-- `/repo/letmein-conf/src/lib.rs:184-198` `Seccomp::from_str`. -/
def Seccomp.fromStr (s : Str) : R Seccomp :=
  let t := trim (toLowercase s)
  if t = "off".toList then .ok .Off
  else if t = "log".toList then .ok .Log
  else if t = "kill".toList then .ok .Kill
  else .err

/-- The shape of most getters: parse the value if there is one, otherwise the default. -/
def getOpt {α : Type} (ini : Ini) (sect opt : String) (parse : Str → R α) (dflt : α) : R α :=
  match ini.get sect.toList opt.toList with
  | some v => parse v
  | none => .ok dflt

/-- `/repo/letmein-conf/src/lib.rs:200-205` `get_debug`. -/
def getDebug (ini : Ini) : R Bool := getOpt ini "GENERAL" "debug" parseBool false

/-- `/repo/letmein-conf/src/lib.rs:224-232,330-342` the words `tcp` and `udp`, as in `get_port` and `get_resources`. -/
def protoWords : Bool × Bool → List Str → R (Bool × Bool)
  | tu, [] => .ok tu
  | (tcp, udp), v :: vs =>
    if toLowercase v = "tcp".toList then protoWords (true, udp) vs
    else if toLowercase v = "udp".toList then protoWords (tcp, true) vs
    else .err

/-- `/repo/letmein-conf/src/lib.rs:215-236` the loop of `get_port`. -/
def portItems : ControlPort → List MapItem → R ControlPort
  | cp, [] => .ok cp
  | cp, i :: is =>
    match i with
    | .KeyValue _ _ => .err
    | .KeyValues _ _ => .err
    | .Values vs =>
      if vs.length = 1 ∧ isNumber (vs.headD []) then do
        let p ← parseU16 (vs.headD [])
        portItems { cp with port := p } is
      else do
        let tu ← protoWords (cp.tcp, cp.udp) vs
        portItems { cp with tcp := tu.1, udp := tu.2 } is

/-- `/repo/letmein-conf/src/lib.rs:208-241` the value of the option `port`. -/
def parsePort (s : Str) : R ControlPort := do
  let map ← parseMap s
  let cp ← portItems { port := PORT, tcp := false, udp := false } map
  .ok (if !cp.tcp && !cp.udp then { cp with tcp := true } else cp)

/-- `/repo/letmein-conf/src/lib.rs:207-244` `get_port`. -/
def getPort (ini : Ini) : R ControlPort := getOpt ini "GENERAL" "port" parsePort ControlPort.default

/-- `/repo/letmein-conf/src/lib.rs:246-251` `get_control_timeout`. -/
def getControlTimeout (f64 : F64Secs) (ini : Ini) : R Duration :=
  getOpt ini "GENERAL" "control-timeout" (parseDuration f64) DEFAULT_CONTROL_TIMEOUT

/-- `/repo/letmein-conf/src/lib.rs:253-258` `get_control_error_policy`. -/
def getControlErrorPolicy (ini : Ini) : R ErrorPolicy := getOpt ini "GENERAL" "control-error-policy" ErrorPolicy.fromStr .Always

/-- `/repo/letmein-conf/src/lib.rs:260-265` `get_seccomp`. -/
def getSeccomp (ini : Ini) : R Seccomp := getOpt ini "GENERAL" "seccomp" Seccomp.fromStr .Off

/-- `/repo/letmein-conf/src/lib.rs:270-283` the loop of `get_keys`. -/
def keysFrom : List (UserId × Key) → List (Str × Str) → R (List (UserId × Key))
  | keys, [] => .ok keys
  | keys, (name, value) :: rest => do
    let id ← parseId name
    let id : UserId := ⟨id⟩
    let key ← parseHex KEY_SIZE value
    rensure (key ≠ Arr.replicate KEY_SIZE 0)
    rensure (key ≠ Arr.replicate KEY_SIZE 0xFF)
    rensure (assocGet keys id).isNone
    keysFrom (assocSet keys id key) rest

/-- `/repo/letmein-conf/src/lib.rs:267-286` `get_keys`, with the options in the order of the iteration. -/
def getKeys (options : Option (List (Str × Str))) : R (List (UserId × Key)) :=
  match options with
  | some opts => keysFrom [] opts
  | none => .ok []

/-- `/repo/letmein-conf/src/lib.rs:295-298` the variables of the loop over the items of a resource. -/
structure ResItems where
  port : Option UInt16
  users : List Str
  tcp : Bool
  udp : Bool

/-- `/repo/letmein-conf/src/lib.rs:300-345` the loop over the items of a resource. -/
def resItems : ResItems → List MapItem → R ResItems
  | st, [] => .ok st
  | st, i :: is =>
    match i with
    | .KeyValue k v =>
      if k = "port".toList then
        if st.port.isSome then .err
        else do
          let p ← parseU16 v
          resItems { st with port := some p } is
      else if k = "users".toList then
        if ¬ st.users.isEmpty then .err
        else resItems { st with users := [v] } is
      else .err
    | .KeyValues k vs =>
      if k = "port".toList then .err
      else if k = "users".toList then
        if ¬ st.users.isEmpty then .err
        else resItems { st with users := vs } is
      else .err
    | .Values vs => do
      let tu ← protoWords (st.tcp, st.udp) vs
      resItems { st with tcp := tu.1, udp := tu.2 } is

/-- `/repo/letmein-conf/src/lib.rs:354-361` the user ids of a resource. -/
def resUsers : List Str → R (List UserId)
  | [] => .ok []
  | u :: us => do
    let id ← parseId u
    let ids ← resUsers us
    .ok (⟨id⟩ :: ids)

/-- `/repo/letmein-conf/src/lib.rs:293-361,377-382` the value of one entry of the resources section. -/
def parseResource (s : Str) : R Resource := do
  let map ← parseMap s
  let st ← resItems { port := none, users := [], tcp := false, udp := false } map
  match st.port with
  | none => .err
  | some port =>
    let users ← resUsers st.users
    .ok { port, tcp := st.tcp || !st.udp, udp := st.udp, users }

/-- `/repo/letmein-conf/src/lib.rs:291-384` the loop of `get_resources`. -/
def resourcesFrom : List (ResourceId × Resource) → List (Str × Str) → R (List (ResourceId × Resource))
  | ress, [] => .ok ress
  | ress, (name, value) :: rest => do
    let id ← parseId name
    let id : ResourceId := ⟨id⟩
    let res ← parseResource value
    rensure (ress.all (fun e => e.1 ≠ id && e.2.port ≠ res.port))
    resourcesFrom (assocSet ress id res) rest

/-- `/repo/letmein-conf/src/lib.rs:288-387` `get_resources`, with the options in the order of the iteration. -/
def getResources (options : Option (List (Str × Str))) : R (List (ResourceId × Resource)) :=
  match options with
  | some opts => resourcesFrom [] opts
  | none => .ok []

/-- `/repo/letmein-conf/src/lib.rs:389-394` `get_default_user`. -/
def getDefaultUser (ini : Ini) : R UserId :=
  getOpt ini "CLIENT" "default-user" (fun s => do let id ← parseId s; .ok ⟨id⟩) ⟨0⟩

/-- `/repo/letmein-conf/src/lib.rs:396-401` `get_nft_exe`. -/
def getNftExe (ini : Ini) : R Str := getOpt ini "NFTABLES" "exe" (fun s => .ok (trim s)) "nft".toList

/-- `/repo/letmein-conf/src/lib.rs:403-416` `get_nft_family`. -/
def getNftFamily (ini : Ini) : R Str :=
  getOpt ini "NFTABLES" "family" (fun s =>
    if trim s = "inet".toList ∨ trim s = "ip".toList ∨ trim s = "ip6".toList then .ok (trim s) else .err) []

/-- `/repo/letmein-conf/src/lib.rs:418-424` `get_nft_table`. -/
def getNftTable (ini : Ini) : R Str := getOpt ini "NFTABLES" "table" (fun s => .ok (trim s)) []

/-- `/repo/letmein-conf/src/lib.rs:426-432` `get_nft_chain_input`. -/
def getNftChainInput (ini : Ini) : R Str := getOpt ini "NFTABLES" "chain-input" (fun s => .ok (trim s)) []

/-- `/repo/letmein-conf/src/lib.rs:434-440` `get_nft_timeout`. -/
def getNftTimeout (f64 : F64Secs) (ini : Ini) : R Duration := getOpt ini "NFTABLES" "timeout" (parseDuration f64) DEFAULT_NFT_TIMEOUT

/-- The order in which the options of a section are iterated. -/
abbrev IterOrder := List (Str × Str) → List (Str × Str)

/-- `/repo/letmein-conf/src/lib.rs:543-551` an option that only one variant of the program reads. -/
def onlyFor {α : Type} (wanted variant : ConfigVariant) (x : R α) (dflt : α) : R α := if variant = wanted then x else .ok dflt

/-- `/repo/letmein-conf/src/lib.rs:529-552` the values of the new configuration; nothing is assigned before all are there. -/
def Config.values (f64 : F64Secs) (order : IterOrder) (old : Config) (ini : Ini) : R Config := do
  let debug ← getDebug ini
  let port ← getPort ini
  let controlTimeout ← getControlTimeout f64 ini
  let controlErrorPolicy ← getControlErrorPolicy ini
  let seccomp ← getSeccomp ini
  let keys ← getKeys ((ini.optionsIter "KEYS".toList).map order)
  let resources ← getResources ((ini.optionsIter "RESOURCES".toList).map order)
  let defaultUser ← onlyFor .Client old.variant (getDefaultUser ini) ⟨0⟩
  let nftExe ← onlyFor .Server old.variant (getNftExe ini) []
  let nftFamily ← onlyFor .Server old.variant (getNftFamily ini) []
  let nftTable ← onlyFor .Server old.variant (getNftTable ini) []
  let nftChainInput ← onlyFor .Server old.variant (getNftChainInput ini) []
  let nftTimeout ← onlyFor .Server old.variant (getNftTimeout f64 ini) DEFAULT_NFT_TIMEOUT
  .ok { old with debug, port, controlTimeout, controlErrorPolicy, seccomp, keys, resources, defaultUser, nftExe, nftFamily,
                 nftTable, nftChainInput, nftTimeout }

/-- `/repo/letmein-conf/src/lib.rs:528-568` `load_ini`. -/
def Config.loadIni (f64 : F64Secs) (order : IterOrder) (c : Config) (ini : Ini) : R Unit × Config :=
  match c.values f64 order ini with
  | .ok c' => (.ok (), c')
  | .err => (.err, c)
  | .panic => (.panic, c)

/-- `/repo/letmein-conf/src/lib.rs:517-525` `load`. -/
def Config.load (f64 : F64Secs) (order : IterOrder) (c : Config) (path : Str) (file : FileContent) : R Unit × Config :=
  match Ini.newFromFile file with
  | .panic => (.panic, c)
  | .ok ini =>
    match c.loadIni f64 order ini with
    | (.ok _, c') => (.ok (), { c' with path := some path })
    | r => r
  | .err => if c.variant = .Server then (.err, c) else (.ok (), { c with path := some path })

/-! ## `/repo/letmein/src/command/genkey.rs` -/

/-- `{b:02X}`. -/
def showHexByte (b : UInt8) : Str := padZeros 2 (showHexUpper b.toNat)

/-- `/repo/letmein/src/command/genkey.rs:15-22` the line `run_genkey` prints. -/
def genkeyLine (conf : Config) (user : Option UserId) (key : Key) : Str :=
  showId (user.getD conf.defaultUser).raw ++ " = ".toList ++ (key.val.map showHexByte).flatten

end Letmein
