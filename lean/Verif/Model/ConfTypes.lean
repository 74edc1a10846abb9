import Verif.Model.Wire

/-!
# Configuration values

The data types of `/repo/letmein-conf/src/lib.rs` and the lookups other components use.
How a `Config` comes out of a file is modelled in `Verif.Model.Conf`.
-/

namespace Letmein

/-- Strings as lists of Unicode scalar values (`&str`, `String`). -/
abbrev Str := List Char

/-- Durations and points in time (`std::time::Duration`, `Instant`): a number of nanoseconds. -/
abbrev Duration := Nat

/-- `/repo/letmein-conf/src/lib.rs:47` `DEFAULT_CONTROL_TIMEOUT`: 5000 ms. -/
def DEFAULT_CONTROL_TIMEOUT : Duration := 5000 * 1000000
/-- `/repo/letmein-conf/src/lib.rs:48` `DEFAULT_NFT_TIMEOUT`: 600000 ms. -/
def DEFAULT_NFT_TIMEOUT : Duration := 600000 * 1000000

/-- `/repo/letmein-conf/src/lib.rs:51-56` `ControlPort`. -/
structure ControlPort where
  port : UInt16
  tcp : Bool
  udp : Bool
  deriving DecidableEq, Repr

/-- `/repo/letmein-conf/src/lib.rs:58-66` `ControlPort::default`. -/
def ControlPort.default : ControlPort := { port := PORT, tcp := true, udp := false }

/-- `/repo/letmein-conf/src/lib.rs:84-94` `Resource` (it has the single variant `Port`). -/
structure Resource where
  port : UInt16
  tcp : Bool
  udp : Bool
  users : List UserId
  deriving DecidableEq, Repr

/-- `/repo/letmein-conf/src/lib.rs:97-112` `Resource::contains_user`. -/
def Resource.containsUser (r : Resource) (id : UserId) : Bool :=
  if r.users.isEmpty then true else r.users.contains id

/-- `/repo/letmein-conf/src/lib.rs:115-127` `ErrorPolicy`. -/
inductive ErrorPolicy where
  | Always | BasicAuth | FullAuth
  deriving DecidableEq, Repr

/-- `/repo/letmein-conf/src/lib.rs:156-173` `Seccomp`. -/
inductive Seccomp where
  | Off | Log | Kill
  deriving DecidableEq, Repr

/-- `/repo/letmein-conf/src/lib.rs:442-450` `ConfigVariant`. -/
inductive ConfigVariant where
  | Server | Client
  deriving DecidableEq, Repr

/-- `/repo/letmein-conf/src/lib.rs:452-470` `Config`.
The two `HashMap`s are association lists in the order in which the map happens to be iterated;
`path` values are plain strings. -/
structure Config where
  variant : ConfigVariant
  path : Option Str
  debug : Bool
  port : ControlPort
  controlTimeout : Duration
  controlErrorPolicy : ErrorPolicy
  seccomp : Seccomp
  keys : List (UserId × Key)
  resources : List (ResourceId × Resource)
  defaultUser : UserId
  nftExe : Str
  nftFamily : Str
  nftTable : Str
  nftChainInput : Str
  nftTimeout : Duration
  deriving DecidableEq

/-- `/repo/letmein-conf/src/lib.rs:474-481` `Config::new`. -/
def Config.new (variant : ConfigVariant) : Config :=
  { variant, path := none, debug := false, port := ControlPort.default,
    controlTimeout := DEFAULT_CONTROL_TIMEOUT, controlErrorPolicy := .Always, seccomp := .Off,
    keys := [], resources := [], defaultUser := ⟨0⟩, nftExe := [], nftFamily := [], nftTable := [],
    nftChainInput := [], nftTimeout := DEFAULT_NFT_TIMEOUT }

/-- `HashMap::get`. -/
def assocGet {κ ν : Type} [DecidableEq κ] : List (κ × ν) → κ → Option ν
  | [], _ => none
  | (k', v) :: rest, k => if k' = k then some v else assocGet rest k

/-- `/repo/letmein-conf/src/lib.rs:596-598` `Config::key`. -/
def Config.key (c : Config) (id : UserId) : Option Key := assocGet c.keys id

/-- `/repo/letmein-conf/src/lib.rs:601-603` `Config::resource`. -/
def Config.resource (c : Config) (id : ResourceId) : Option Resource := assocGet c.resources id

/-- `/repo/letmein-conf/src/lib.rs:606-623` the loop of `resource_id_by_port`. -/
def resourceIdByPort (port : UInt16) (user : Option UserId) : List (ResourceId × Resource) → Option ResourceId
  | [] => none
  | (k, v) :: rest =>
    if v.port = port then
      match user with
      | some u => if v.containsUser u then some k else resourceIdByPort port user rest
      | none => some k
    else resourceIdByPort port user rest

/-- `/repo/letmein-conf/src/lib.rs:606-623` `Config::resource_id_by_port`. -/
def Config.resourceIdByPort (c : Config) (port : UInt16) (user : Option UserId) : Option ResourceId :=
  Letmein.resourceIdByPort port user c.resources

end Letmein
