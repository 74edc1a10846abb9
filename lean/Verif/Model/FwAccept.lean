import Verif.Model.StdText

/-!
# letmeinfwd: who may connect

Models `/repo/letmeinfwd/src/uid_gid.rs`, `/repo/letmeinfwd/src/main.rs:95-102` and `/repo/letmeinfwd/src/server.rs:31-42,209-255`.
File contents are inputs; `none` is a file that cannot be read (or is not UTF-8).
-/

namespace Letmein

/-- `/repo/letmeinfwd/src/uid_gid.rs:16-26,35-45` the loop over the lines. -/
def findId (fieldCount : Nat) (name : Str) : List Str → R UInt32
  | [] => .err
  | line :: rest =>
    match splitN ':' fieldCount line with
    | [] => .err
    | n :: fields =>
      if n = name then
        match fields with
        | _pw :: id :: _ => parseU32Dec id
        | _ => .err
      else findId fieldCount name rest

/-- `/repo/letmeinfwd/src/uid_gid.rs:13-29` `os_get_uid`; `data` is `/etc/passwd`. -/
def osGetUid (data : Option Str) (name : Str) : R UInt32 :=
  match data with
  | none => .err
  | some d => findId 7 name (lines d)

/-- `/repo/letmeinfwd/src/uid_gid.rs:32-48` `os_get_gid`; `data` is `/etc/group`. -/
def osGetGid (data : Option Str) (name : Str) : R UInt32 :=
  match data with
  | none => .err
  | some d => findId 4 name (lines d)

/-- `/repo/letmeinfwd/src/main.rs:48-49,95-102` `read_etc_passwd`: the values of `LETMEIND_UID` and `LETMEIND_GID` afterwards. -/
def readEtcPasswd (testMode : Bool) (passwd group : Option Str) : R (UInt32 × UInt32) :=
  if !testMode then do
    let uid ← osGetUid passwd "letmeind".toList
    let gid ← osGetGid group "letmeind".toList
    .ok (uid, gid)
  else .ok (0xFFFFFFFF, 0xFFFFFFFF)

/-- `/repo/letmeinfwd/src/server.rs:31-42` `get_letmeind_pid`; `file` is the pid file. -/
def getLetmeindPid (file : Option Str) : R Int :=
  match file with
  | none => .err
  | some s => parseI32 (trim s)

/-- Credentials of the peer of a Unix socket (`UCred`). -/
structure Cred where
  pid : Option Int
  uid : UInt32
  gid : UInt32
  deriving DecidableEq

/-- `/repo/letmeinfwd/src/server.rs:209-255` `accept`, after the listener has accepted: `cred` is `none` if the credentials
cannot be read. Success means that the connection is served. -/
def fwAccept (testMode : Bool) (ids : UInt32 × UInt32) (cred : Option Cred) (pidFile : Option Str) : R Unit :=
  match cred with
  | none => .err
  | some cred =>
    match cred.pid with
    | none => .err
    | some pid => do
      let expected ← getLetmeindPid pidFile
      if pid ≠ expected then .err
      else if !testMode then
        if cred.uid ≠ ids.1 then .err
        else if cred.gid ≠ ids.2 then .err
        else .ok ()
      else .ok ()

end Letmein
