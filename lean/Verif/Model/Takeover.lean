import Verif.Model.Main

/-!
# Model: several starts of letmeind next to letmeinfwd

The run directory over a history of starts of letmeind, successful or not, and what letmeinfwd then makes of connections to its socket. One start is
one step (`lmMain` of `Verif.Model.Main`); a start that is killed on the way leaves the run directory as it was after one of its system calls.
-/

namespace Letmein

/-- `/repo/letmeind/src/main.rs:122-146` what a start of letmeind does in the run directory, however it ends: the states after each of its system calls, and
the last one. The steps are those of `lmMain`; what comes after `make_pidfile` does not touch the directory. -/
def lmDirectory (o : LmOpts) (w : LmWorld) : List Fs × Fs :=
  let dir := createDirIfNotExists w.fsEnv (w.fsEnv.ok 0) lmDirPath w.fs
  match dir.res with
  | .ok _ =>
    match (Config.new .Server).load w.f64 w.order o.config w.file with
    | (.ok _, conf) =>
      match serverNew conf.port o.noSystemd w.sockets w.usable w.notifyOk w.bindTcpOk w.bindUdpOk with
      | .ok _ =>
        let pid := makePidfile w.fsEnv lmPidPath w.chunks w.pid dir.fs
        (dir.states ++ pid.states, pid.fs)
      | _ => (dir.states, dir.fs)
    | _ => (dir.states, dir.fs)
  | _ => (dir.states, dir.fs)

/-- The host: the run directory, the letmeinds that have completed their start and not ended (by pid), and letmeinfwd with the account ids it has read
(`/repo/letmeinfwd/src/main.rs:48-49`), if it is there. -/
structure LmHost where
  fs : Fs
  running : List UInt32
  fwd : Option (UInt32 × UInt32)

/-- What happens on the host. -/
inductive LmHostEvent where
  /-- letmeind is started; the run directory of `w` is replaced by the host's -/
  | lmStart (o : LmOpts) (w : LmWorld)
  /-- letmeind is started and killed after `i` more system calls -/
  | lmKilled (o : LmOpts) (w : LmWorld) (i : Nat)
  /-- a letmeind ends, in whatever way; it does not touch the run directory -/
  | lmEnd (pid : UInt32)
  /-- letmeinfwd starts (`/repo/letmeinfwd/src/main.rs:95-102`) -/
  | fwdStart (passwd group : Option Str)
  /-- a process connects to letmeinfwd's socket (`/repo/letmeinfwd/src/server.rs:209-255`) -/
  | connect (cred : Option Cred)
  /-- anything else in the run directory -/
  | others (fs : Fs)

/-- One event; the answer says whether a connection was served. A connection that is not served ends letmeinfwd
(`/repo/letmeinfwd/src/main.rs:237-240,280-283`). -/
def lmHostStep (h : LmHost) : LmHostEvent → Bool × LmHost
  | .lmStart o w =>
    let w := { w with fs := h.fs }
    let fs := (lmDirectory o w).2
    match lmMain o w with
    | .ok _ => (false, { h with fs, running := w.pid :: h.running })
    | _ => (false, { h with fs })
  | .lmKilled o w i => (false, { h with fs := (lmDirectory o { w with fs := h.fs }).1.getD i h.fs })
  | .lmEnd pid => (false, { h with running := h.running.filter (fun p => p ≠ pid) })
  | .fwdStart passwd group =>
    match readEtcPasswd false passwd group with
    | .ok ids => (false, { h with fwd := some ids })
    | _ => (false, h)
  | .connect cred =>
    match h.fwd with
    | none => (false, h)
    | some ids =>
      match fwAccept false ids cred (fsRead h.fs lmPidPath) with
      | .ok _ => (true, h)
      | _ => (false, { h with fwd := none })
  | .others fs => (false, { h with fs })

/-- A history. -/
def lmHostRun (h : LmHost) : List LmHostEvent → LmHost
  | [] => h
  | e :: rest => lmHostRun (lmHostStep h e).2 rest

end Letmein
