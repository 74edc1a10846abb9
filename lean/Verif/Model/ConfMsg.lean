import Verif.Model.Conf

/-!
# What is printed if the configuration cannot be loaded

`/repo/letmein-conf/src/lib.rs:267-286,516-568`, `/repo/letmein-conf/src/parse.rs:50-74`, and the mains of the three programs, that
return the error and so have it printed with everything that it carries (`/repo/letmein/src/main.rs:244-245`,
`/repo/letmeind/src/main.rs:128-129`, `/repo/letmeinfwd/src/main.rs:187-188`).

Simplifications: a message is the chain of its contexts, outermost first, without the layout that `anyhow` gives it. The texts about
options of other sections than `[KEYS]`, and about the name of an option in `[KEYS]`, are parameters: they are made from what is read
there, and from nothing else.
-/

namespace Letmein

/-- A chain of contexts with the cause at the end. -/
abbrev ErrChain := List Str

/-- The texts that are not spelled out. -/
structure ConfTexts where
  /-- About a value of the sections GENERAL, CLIENT and NFTABLES: section, option and value
  (`/repo/letmein-conf/src/lib.rs:200-265,389-440`). -/
  option : String → String → Str → ErrChain
  /-- About the entries of the section RESOURCES, in the order of the iteration (`/repo/letmein-conf/src/lib.rs:288-387`). -/
  resources : List (Str × Str) → ErrChain
  /-- Why a name is no identifier (`/repo/letmein-proto/src/lib.rs:89-95`). -/
  ident : Str → Str
  /-- The path of the file with quotes (`/repo/letmein-conf/src/lib.rs:521`). -/
  path : Str

/-- `/repo/letmein-conf/src/parse.rs:55-73` the error of `parse_hex`. The last text is that of `ParseIntError` for a single character
that is no digit (`/repo/letmein-conf/src/parse.rs:52`). -/
def hexText (size : Nat) (s : Str) : Str :=
  let t := trim s
  if ¬ t.all (fun c => decide (c.toNat < 128)) then "Hex string contains invalid characters.".toList
  else if t.length ≠ size * 2 then
    "Hex string is too short: Expected ".toList ++ showNat (size * 2) ++ ", got ".toList ++ showNat t.length ++ " chars".toList
  else "invalid digit found in string".toList

/-- `/repo/letmein-conf/src/lib.rs:270-283` the error of the loop of `get_keys`, if there is one. -/
def keysMsg (T : ConfTexts) : List (UserId × Key) → List (Str × Str) → Option ErrChain
  | _, [] => none
  | keys, (name, value) :: rest =>
    match parseId name with
    | .ok id =>
      match parseHex KEY_SIZE value with
      | .ok key =>
        if key = Arr.replicate KEY_SIZE 0 then some ["Invalid key ".toList ++ showId id ++ ": Key is all zeros (00)".toList]
        else if key = Arr.replicate KEY_SIZE 0xFF then some ["Invalid key ".toList ++ showId id ++ ": Key is all ones (FF)".toList]
        else if (assocGet keys (⟨id⟩ : UserId)).isSome then
          some ["[KEYS] Multiple definitions of key '".toList ++ showId id ++ "'".toList]
        else keysMsg T (assocSet keys (⟨id⟩ : UserId) key) rest
      | _ => some ["[KEYS]".toList, hexText KEY_SIZE value]
    | _ => some ["[KEYS]".toList, T.ident name]

/-- `/repo/letmein-conf/src/lib.rs:267-286` the error of `get_keys`. -/
def getKeysMsg (T : ConfTexts) (options : Option (List (Str × Str))) : Option ErrChain :=
  match options with
  | some opts => keysMsg T [] opts
  | none => none

/-- The error of a getter that reads one option. -/
def optionMsg {α : Type} (T : ConfTexts) (ini : Ini) (sect opt : String) (r : R α) : Option ErrChain :=
  match r with
  | .err => some (T.option sect opt ((ini.get sect.toList opt.toList).getD []))
  | _ => none

/-- `/repo/letmein-conf/src/lib.rs:288-387` the error of `get_resources`. -/
def resourcesMsg (T : ConfTexts) (options : Option (List (Str × Str))) : Option ErrChain :=
  match getResources options with
  | .err => some (T.resources (options.getD []))
  | _ => none

/-- `/repo/letmein-conf/src/lib.rs:536-552` the first error of `load_ini`. -/
def Config.valuesMsg (T : ConfTexts) (f64 : F64Secs) (order : IterOrder) (c : Config) (ini : Ini) : Option ErrChain :=
  (optionMsg T ini "GENERAL" "debug" (getDebug ini)).or <|
  (optionMsg T ini "GENERAL" "port" (getPort ini)).or <|
  (optionMsg T ini "GENERAL" "control-timeout" (getControlTimeout f64 ini)).or <|
  (optionMsg T ini "GENERAL" "control-error-policy" (getControlErrorPolicy ini)).or <|
  (optionMsg T ini "GENERAL" "seccomp" (getSeccomp ini)).or <|
  (getKeysMsg T ((ini.optionsIter "KEYS".toList).map order)).or <|
  (resourcesMsg T ((ini.optionsIter "RESOURCES".toList).map order)).or <|
  (optionMsg T ini "CLIENT" "default-user" (onlyFor .Client c.variant (getDefaultUser ini) ⟨0⟩)).or <|
  (optionMsg T ini "NFTABLES" "exe" (onlyFor .Server c.variant (getNftExe ini) [])).or <|
  (optionMsg T ini "NFTABLES" "family" (onlyFor .Server c.variant (getNftFamily ini) [])).or <|
  (optionMsg T ini "NFTABLES" "table" (onlyFor .Server c.variant (getNftTable ini) [])).or <|
  (optionMsg T ini "NFTABLES" "chain-input" (onlyFor .Server c.variant (getNftChainInput ini) [])).or <|
  optionMsg T ini "NFTABLES" "timeout" (onlyFor .Server c.variant (getNftTimeout f64 ini) DEFAULT_NFT_TIMEOUT)

/-- `/repo/letmein-conf/src/lib.rs:517-525` the error of `load`: that of the `.ini` parser, that quotes the line, is dropped
(`if let Ok(ini)`). -/
def Config.loadMsg (T : ConfTexts) (f64 : F64Secs) (order : IterOrder) (c : Config) (file : FileContent) : Option ErrChain :=
  match Ini.newFromFile file with
  | .ok ini => c.valuesMsg T f64 order ini
  | _ => if c.variant = .Server then some ["Failed to load configuration ".toList ++ T.path] else none

/-- `/repo/letmein/src/main.rs:244-245`, `/repo/letmeind/src/main.rs:128-129`, `/repo/letmeinfwd/src/main.rs:187-188` what the program
prints: nothing, if the configuration is loaded. -/
def configFileMsg (T : ConfTexts) (f64 : F64Secs) (order : IterOrder) (c : Config) (file : FileContent) : Option ErrChain :=
  (c.loadMsg T f64 order file).map ("Configuration file".toList :: ·)

end Letmein
