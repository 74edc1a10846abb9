import Verif.Model.FwAccept
import Verif.Model.Text

/-!
# Model: files in the run directory

`/repo/letmeind/src/main.rs:42-76,124,146` and `/repo/letmeinfwd/src/main.rs:51-114,183,209`, `/repo/letmeinfwd/src/server.rs:179-200`:
the run directories, the pid files and the Unix socket with their owners and modes.

A path is its text below the run directory. Each system call is one step; that it fails for whatever reason is an input. Symbolic links, other
programs working on the same paths during start-up and the creation of missing parents are not modelled.
-/

namespace Letmein

/-- What a path names. `sock live`: a Unix socket; `live`: this process listens on it. -/
inductive NodeKind where
  | dir
  | sock (live : Bool)
  | file (content : Str)
  | other
  deriving DecidableEq

/-- An entry of the file system. -/
structure Node where
  kind : NodeKind
  uid : UInt32
  gid : UInt32
  mode : Nat
  deriving DecidableEq

/-- The run directory. -/
abbrev Fs := Str → Option Node

/-- One entry changed. -/
def Fs.put (fs : Fs) (path : Str) (n : Option Node) : Fs := fun p => if p = path then n else fs p

/-- The calling process, and whether its `i`th system call below succeeds. -/
structure FsEnv where
  uid : UInt32
  gid : UInt32
  umask : Nat
  ok : Nat → Bool

/-- Result and the states of the run directory after each system call; the last one (or the initial one) is the state reached. -/
structure FsOut (α : Type) where
  res : R α
  states : List Fs
  fs : Fs

/-- Code with system calls. -/
def FsM (α : Type) := Fs → FsOut α

/-- No system call. -/
def FsM.pure {α : Type} (a : α) : FsM α := fun fs => ⟨.ok a, [], fs⟩

/-- `?` between two pieces of code. -/
def FsM.bind {α β : Type} (p : FsM α) (f : α → FsM β) : FsM β := fun fs =>
  let a := p fs
  match a.res with
  | .ok x =>
    let b := f x a.fs
    ⟨b.res, a.states ++ b.states, b.fs⟩
  | .err => ⟨.err, a.states, a.fs⟩
  | .panic => ⟨.panic, a.states, a.fs⟩

instance : Monad FsM where
  pure := FsM.pure
  bind := FsM.bind

/-- A failure without system call. -/
def FsM.fail {α : Type} : FsM α := fun fs => ⟨.err, [], fs⟩

/-- Code without system calls on the run directory that may fail. -/
def fsOther (ok : Bool) : FsM Unit := if ok then pure () else FsM.fail

/-- `metadata`: fails exactly if there is no entry. -/
def fsStat (path : Str) : FsM (Option Node) := fun fs => ⟨.ok (fs path), [], fs⟩

/-- A system call that changes the run directory; `f` is its effect, `none` if it is impossible. -/
def fsCall (ok : Bool) (f : Fs → Option Fs) : FsM Unit := fun fs =>
  match (if ok then f fs else none) with
  | some fs' => ⟨.ok (), [fs'], fs'⟩
  | none => ⟨.err, [], fs⟩

/-- `mkdir(path, 0777)`. -/
def mkdirCall (env : FsEnv) (ok : Bool) (path : Str) : FsM Unit := fsCall ok fun fs =>
  match fs path with
  | none => some (fs.put path (some ⟨.dir, env.uid, env.gid, 0o777 &&& (0o777 ^^^ (env.umask &&& 0o777))⟩))
  | some _ => none

/-- `chown`. -/
def chownCall (ok : Bool) (path : Str) (uid gid : UInt32) : FsM Unit := fsCall ok fun fs =>
  (fs path).map fun n => fs.put path (some { n with uid, gid })

/-- `chmod`. -/
def chmodCall (ok : Bool) (path : Str) (mode : Nat) : FsM Unit := fsCall ok fun fs =>
  (fs path).map fun n => fs.put path (some { n with mode })

/-- `unlink`. -/
def unlinkCall (ok : Bool) (path : Str) : FsM Unit := fsCall ok fun fs =>
  (fs path).map fun _ => fs.put path none

/-- `bind` and `listen` of a Unix socket: the path must not exist yet. -/
def bindCall (env : FsEnv) (ok : Bool) (path : Str) : FsM Unit := fsCall ok fun fs =>
  match fs path with
  | none => some (fs.put path (some ⟨.sock true, env.uid, env.gid, 0o777 &&& (0o777 ^^^ (env.umask &&& 0o777))⟩))
  | some _ => none

/-- `open` with `O_WRONLY | O_CREAT | O_TRUNC`. -/
def openTruncCall (env : FsEnv) (ok : Bool) (path : Str) : FsM Unit := fsCall ok fun fs =>
  match fs path with
  | none => some (fs.put path (some ⟨.file [], env.uid, env.gid, 0o666 &&& (0o777 ^^^ (env.umask &&& 0o777))⟩))
  | some n =>
    match n.kind with
    | .file _ => some (fs.put path (some { n with kind := .file [] }))
    | _ => none

/-- `write` of some bytes at the end of what has been written. -/
def writeCall (ok : Bool) (path : Str) (data : Str) : FsM Unit := fsCall ok fun fs =>
  match fs path with
  | some ⟨.file c, u, g, m⟩ => some (fs.put path (some ⟨.file (c ++ data), u, g, m⟩))
  | _ => none

/-- `/repo/letmeind/src/main.rs:43-57`, `/repo/letmeinfwd/src/main.rs:52-66` `create_dir_if_not_exists`. -/
def createDirIfNotExists (env : FsEnv) (ok : Bool) (path : Str) : FsM Unit := do
  match ← fsStat path with
  | none => mkdirCall env ok path
  | some n => if n.kind ≠ .dir then FsM.fail else pure ()

/-- `/repo/letmeinfwd/src/main.rs:69-76` `set_owner_mode`. -/
def setOwnerMode (ok1 ok2 : Bool) (path : Str) (uid gid : UInt32) (mode : Nat) : FsM Unit := do
  match ← fsStat path with
  | none => FsM.fail
  | some _ => do
    chownCall ok1 path uid gid
    chmodCall ok2 path mode

/-- `/repo/letmeinfwd/src/main.rs:80,183` the run directory of letmeinfwd. -/
def fwdDirPath : Str := "letmeinfwd".toList
/-- `/repo/letmeinfwd/src/server.rs:180-181`, `/repo/letmein-fwproto/src/lib.rs:31` `SOCK_FILE`: its socket. -/
def fwdSockPath : Str := "letmeinfwd/letmeinfwd.sock".toList
/-- `/repo/letmeinfwd/src/main.rs:110` its pid file. -/
def fwdPidPath : Str := "letmeinfwd/letmeinfwd.pid".toList
/-- `/repo/letmeind/src/main.rs:61` the run directory of letmeind. -/
def lmDirPath : Str := "letmeind".toList
/-- `/repo/letmeind/src/main.rs:72`, `/repo/letmeinfwd/src/server.rs:35` the pid file of letmeind. -/
def lmPidPath : Str := "letmeind/letmeind.pid".toList

/-- `/repo/letmeinfwd/src/main.rs:79-93` `make_run_subdir`. -/
def fwdMakeRunSubdir (env : FsEnv) (testMode : Bool) (gid : UInt32) : FsM Unit := do
  createDirIfNotExists env (env.ok 0) fwdDirPath
  if !testMode then setOwnerMode (env.ok 1) (env.ok 2) fwdDirPath 0 gid 0o750 else pure ()

/-- `/repo/letmeinfwd/src/server.rs:180-188` removing an old socket. -/
def fwdRemoveSocket (env : FsEnv) : FsM Unit := do
  match ← fsStat fwdSockPath with
  | some ⟨.sock _, _, _, _⟩ => unlinkCall (env.ok 3) fwdSockPath
  | _ => pure ()

/-- `/repo/letmeinfwd/src/server.rs:180-200` removing an old socket, binding, setting owner and mode. -/
def fwdBindSocket (env : FsEnv) (testMode : Bool) (gid : UInt32) : FsM Unit := do
  fwdRemoveSocket env
  bindCall env (env.ok 4) fwdSockPath
  if !testMode then setOwnerMode (env.ok 5) (env.ok 6) fwdSockPath 0 gid 0o660 else pure ()

/-- `/repo/letmeind/src/main.rs:74`, `/repo/letmeinfwd/src/main.rs:112` the text `format!("{}\n", id)`. -/
def pidFileText (pid : UInt32) : Str := showNat pid.toNat ++ ['\n']

/-- `write_all`: the text in one or several pieces; `chunks` says how many characters each call takes (at least one). -/
def writeAll (ok : Nat → Bool) (path : Str) : (chunks : List Nat) → Str → FsM Unit
  | _, [] => pure ()
  | [], c :: text => writeCall (ok 0) path (c :: text)
  | k :: chunks, c :: text => do
    writeCall (ok 0) path (c :: text.take k)
    writeAll (fun i => ok (i + 1)) path chunks (text.drop k)

/-- `/repo/letmeind/src/main.rs:67-76`, `/repo/letmeinfwd/src/main.rs:105-114` `make_pidfile`. -/
def makePidfile (env : FsEnv) (path : Str) (chunks : List Nat) (pid : UInt32) : FsM Unit := do
  openTruncCall env (env.ok 7) path
  writeAll (fun i => env.ok (8 + i)) path chunks (pidFileText pid)

/-- `/repo/letmeinfwd/src/main.rs:178-209` what start-up does in the run directory with `--no-systemd`; the loading of the
configuration and the firewall come between the first two calls and may fail (`between`). -/
def fwdFsStart (env : FsEnv) (testMode : Bool) (gid : UInt32) (between : Bool) (chunks : List Nat) (pid : UInt32) : FsM Unit := do
  fwdMakeRunSubdir env testMode gid
  fsOther between
  fwdBindSocket env testMode gid
  makePidfile env fwdPidPath chunks pid

/-- `/repo/letmeind/src/main.rs:60-64,122-146` what start-up of letmeind does in the run directory (`between`: configuration and sockets). -/
def lmFsStart (env : FsEnv) (between : Bool) (chunks : List Nat) (pid : UInt32) : FsM Unit := do
  createDirIfNotExists env (env.ok 0) lmDirPath
  fsOther between
  makePidfile env lmPidPath chunks pid

/-- `/repo/letmeinfwd/src/server.rs:31-42` what `get_letmeind_pid` reads (`none`: it cannot be opened). -/
def fsRead (fs : Fs) (path : Str) : Option Str :=
  match fs path with
  | some ⟨.file c, _, _, _⟩ => some c
  | _ => none

end Letmein
