import Verif.Model.Base

/-!
# Knock-protocol messages

Models `/repo/letmein-proto/src/lib.rs` (messages, serialization, authentication).
Not modelled: the constant-time property of `ct_eq` (only its result), debug printing.
HMAC-SHA3-256 is a parameter `mac : key → text → tag`.
-/

namespace Letmein

/-- `/repo/letmein-proto/src/lib.rs:31` `PORT`. -/
def PORT : UInt16 := 5800
/-- `/repo/letmein-proto/src/lib.rs:34` `MAGIC`. -/
def MAGIC : UInt32 := 0x3B1BB719
/-- `/repo/letmein-proto/src/lib.rs:37` `SALT_SIZE`. -/
abbrev SALT_SIZE : Nat := 8
/-- `/repo/letmein-proto/src/lib.rs:40` `AUTH_SIZE`. -/
abbrev AUTH_SIZE : Nat := 32
/-- `/repo/letmein-proto/src/lib.rs:43` `KEY_SIZE`. -/
abbrev KEY_SIZE : Nat := 32

/-- `/repo/letmein-proto/src/lib.rs:46`. -/
abbrev Salt := Arr SALT_SIZE
/-- `/repo/letmein-proto/src/lib.rs:49`. -/
abbrev Auth := Arr AUTH_SIZE
/-- `/repo/letmein-proto/src/lib.rs:52`. -/
abbrev Key := Arr KEY_SIZE

/-- `/repo/letmein-proto/src/lib.rs:55` `ZERO_AUTH`. -/
def ZERO_AUTH : Auth := Arr.replicate AUTH_SIZE 0

/-- `/repo/letmein-proto/src/lib.rs:60-61` `ResourceId`. -/
structure ResourceId where
  raw : UInt32
  deriving DecidableEq, Repr

/-- `/repo/letmein-proto/src/lib.rs:66-67` `UserId`. -/
structure UserId where
  raw : UInt32
  deriving DecidableEq, Repr

/-- `/repo/letmein-proto/src/lib.rs:138-169` `Operation`. -/
inductive Operation where
  | Knock | Challenge | Response | ComeIn | GoAway
  deriving DecidableEq, Repr

/-- `/repo/letmein-proto/src/lib.rs:137-138,191-195` `Operation as u32`: declaration order from 0. -/
def Operation.toU32 : Operation → UInt32
  | .Knock => 0
  | .Challenge => 1
  | .Response => 2
  | .ComeIn => 3
  | .GoAway => 4

/-- `/repo/letmein-proto/src/lib.rs:171-189` `TryFrom<u32> for Operation`. -/
def Operation.tryFrom (value : UInt32) : R Operation :=
  if value = Operation.Knock.toU32 then .ok .Knock
  else if value = Operation.Challenge.toU32 then .ok .Challenge
  else if value = Operation.Response.toU32 then .ok .Response
  else if value = Operation.ComeIn.toU32 then .ok .ComeIn
  else if value = Operation.GoAway.toU32 then .ok .GoAway
  else .err

/-- `/repo/letmein-proto/src/lib.rs:199` `MSG_SIZE`. -/
abbrev MSG_SIZE : Nat := 4 + 4 + 4 + 4 + SALT_SIZE + AUTH_SIZE
/-- `/repo/letmein-proto/src/lib.rs:202`. -/
abbrev MSG_OFFS_MAGIC : Nat := 0
/-- `/repo/letmein-proto/src/lib.rs:205`. -/
abbrev MSG_OFFS_OPERATION : Nat := 4
/-- `/repo/letmein-proto/src/lib.rs:208`. -/
abbrev MSG_OFFS_USER : Nat := 8
/-- `/repo/letmein-proto/src/lib.rs:211`. -/
abbrev MSG_OFFS_RESOURCE : Nat := 12
/-- `/repo/letmein-proto/src/lib.rs:214`. -/
abbrev MSG_OFFS_SALT : Nat := 16
/-- `/repo/letmein-proto/src/lib.rs:217`. -/
abbrev MSG_OFFS_AUTH : Nat := 24

/-- `/repo/letmein-proto/src/lib.rs:221-228` `Message`. -/
structure Message where
  magic : UInt32
  operation : Operation
  user : UserId
  resource : ResourceId
  salt : Salt
  auth : Auth
  deriving DecidableEq

/-- `/repo/letmein-proto/src/lib.rs:115-133` `secure_random`, for `SZ ≥ 8` (both callers use 8 or 32).
`raw` is what the operating system returned (`none`: getrandom failed). -/
def secureRandom (n : Nat) (raw : Option (Arr n)) : R (Arr n) := do
  rassert (n ≥ 8)
  match raw with
  | none => .panic
  | some buf =>
    rassert (buf ≠ Arr.replicate n 0)
    rassert (buf ≠ Arr.replicate n 0xFF)
    match buf.val with
    | [] => .panic -- `buf[0]` on an empty array
    | first :: _ =>
      rassert (!(buf.val.all (fun x => x == first)))
      .ok buf

/-- `/repo/letmein-proto/src/lib.rs:232-241` `Message::new`; `salt` is the result of `secure_random()`. -/
def Message.new (operation : Operation) (user : UserId) (resource : ResourceId) (salt : Salt) : Message :=
  { magic := MAGIC, operation, user, resource, salt, auth := ZERO_AUTH }

/-- A MAC function: key, text, tag. Stands for `Hmac<Sha3_256>` (`/repo/letmein-proto/src/lib.rs:268-275`). -/
abbrev MacFn := Key → Bytes → Auth

/-- `/repo/letmein-proto/src/lib.rs:270-274` the text fed to the MAC. -/
def Message.macText (m : Message) (challenge : Auth) : Bytes :=
  be32 m.operation.toU32 ++ be32 m.user.raw ++ be32 m.resource.raw ++ m.salt.val ++ challenge.val

/-- `/repo/letmein-proto/src/lib.rs:260-281` `authenticate`.
The two length assertions hold by typing. The `debug_assert_ne!(auth, ZERO_AUTH)` is compiled out in
release builds (`/repo/Cargo.toml:53`) and not modelled. -/
def Message.authenticate (mac : MacFn) (m : Message) (key : Key) (challenge : Auth) : Auth :=
  mac key (m.macText challenge)

/-- `/repo/letmein-proto/src/lib.rs:285-287` `authenticate_no_challenge`. -/
def Message.authenticateNoChallenge (mac : MacFn) (m : Message) (key : Key) : Auth :=
  m.authenticate mac key ZERO_AUTH

/-- `/repo/letmein-proto/src/lib.rs:292-299` `check_auth_ok`. -/
def Message.checkAuthOk (mac : MacFn) (m : Message) (key : Key) (challenge : Message) : R Bool := do
  rassert (challenge.operation = .Challenge)
  rassert (m.operation = .Response)
  .ok (m.auth = m.authenticate mac key challenge.auth)

/-- `/repo/letmein-proto/src/lib.rs:304-310` `check_auth_ok_no_challenge`. -/
def Message.checkAuthOkNoChallenge (mac : MacFn) (m : Message) (key : Key) : R Bool := do
  rassert (m.operation = .Knock)
  .ok (m.auth = m.authenticateNoChallenge mac key)

/-- `/repo/letmein-proto/src/lib.rs:315-319` `generate_auth`. -/
def Message.generateAuth (mac : MacFn) (m : Message) (key : Key) (challenge : Message) : R Message := do
  rassert (challenge.operation = .Challenge)
  rassert (m.operation = .Response)
  .ok { m with auth := m.authenticate mac key challenge.auth }

/-- `/repo/letmein-proto/src/lib.rs:324-327` `generate_auth_no_challenge`. -/
def Message.generateAuthNoChallenge (mac : MacFn) (m : Message) (key : Key) : R Message := do
  rassert (m.operation = .Knock)
  .ok { m with auth := m.authenticateNoChallenge mac key }

/-- `/repo/letmein-proto/src/lib.rs:331-334` `generate_challenge`; `nonce` is the result of `secure_random()`. -/
def Message.generateChallenge (m : Message) (nonce : Auth) : R Message := do
  rassert (m.operation = .Challenge)
  .ok { m with auth := nonce }

/-- `/repo/letmein-proto/src/lib.rs:337-355` `msg_serialize`. -/
def Message.serialize (m : Message) : R Bytes := do
  let buf := (Arr.replicate MSG_SIZE 0).val
  let buf ← writeAt buf MSG_OFFS_MAGIC (be32 m.magic)
  let buf ← writeAt buf MSG_OFFS_OPERATION (be32 m.operation.toU32)
  let buf ← writeAt buf MSG_OFFS_USER (be32 m.user.raw)
  let buf ← writeAt buf MSG_OFFS_RESOURCE (be32 m.resource.raw)
  let buf ← writeAt buf MSG_OFFS_SALT m.salt.val
  let buf ← writeAt buf MSG_OFFS_AUTH m.auth.val
  .ok buf

/-- `/repo/letmein-proto/src/lib.rs:366-369` the local `deserialize_u32(&buf[off..])`. -/
def deserializeU32 (buf : Bytes) (off : Nat) : R UInt32 := do
  let s ← sliceFrom buf off
  let s ← slice s 0 4
  let a ← toArr 4 s
  .ok (ofBe32 a)

/-- `/repo/letmein-proto/src/lib.rs:358-390` `try_msg_deserialize`. -/
def Message.deserialize (buf : Bytes) : R Message := do
  rensure (buf.length = MSG_SIZE)
  let magic ← deserializeU32 buf MSG_OFFS_MAGIC
  let operation ← deserializeU32 buf MSG_OFFS_OPERATION
  let user ← deserializeU32 buf MSG_OFFS_USER
  let resource ← deserializeU32 buf MSG_OFFS_RESOURCE
  let salt ← slice buf MSG_OFFS_SALT (MSG_OFFS_SALT + SALT_SIZE)
  let auth ← slice buf MSG_OFFS_AUTH (MSG_OFFS_AUTH + AUTH_SIZE)
  rensure (magic = MAGIC)
  let operation ← Operation.tryFrom operation
  let salt ← toArr SALT_SIZE salt
  let auth ← toArr AUTH_SIZE auth
  .ok { magic, operation, user := ⟨user⟩, resource := ⟨resource⟩, salt, auth }

end Letmein
