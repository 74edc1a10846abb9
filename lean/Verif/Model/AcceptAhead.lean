import Verif.Model.Daemon

/-!
# Model: the accept tasks of letmeind's `Server`

`lmStep` (`Verif.Model.Daemon`) lets the accept loop take a waiting connection directly from the listener. In the code two spawned tasks do that ahead of the loop, and the
loop takes their results. This is the model with these tasks.
-/

namespace Letmein

/-- `/repo/letmeind/src/server.rs:85-110` a spawned accept task, or its result. -/
inductive JoinTask where
  /-- in `tcp.accept()` or `udp.accept()` -/
  | waiting
  /-- has finished with a connection -/
  | got
  /-- has finished with an error -/
  | failed
  /-- has finished after its handle was dropped; the result is dropped, too -/
  | gone
  deriving DecidableEq, Repr

/-- letmeind with the accept tasks. `core.accept` is the loop of `/repo/letmeind/src/main.rs:157-190`. -/
structure LmAhead where
  core : LmState
  tcp : JoinTask
  udp : JoinTask
  deriving DecidableEq, Repr

/-- What can happen. -/
inductive AheadEv where
  /-- a TCP connection is waiting and the TCP accept task gets round to it -/
  | tcpArrives
  /-- `tcp.accept()` fails for a reason other than a lack of file descriptors -/
  | tcpFails
  /-- a UDP peer is waiting and the UDP accept task gets round to it -/
  | udpArrives
  | udpFails
  /-- `select!` in `Server::accept` takes the result of the TCP task; `nodelay`: `set_nodelay` works -/
  | pickTcp (nodelay : Bool)
  /-- `select!` takes the result of the UDP task -/
  | pickUdp
  /-- as in `LmOp` -/
  | sessionDone (id : Nat)
  | sessionPanic
  | sigterm
  | sigint
  | sighup
  | exitRecv
  deriving DecidableEq, Repr

/-- `/repo/letmeind/src/server.rs:194-207` the tasks are spawned when the server is created. -/
def aheadStart (limit : Nat) : R LmAhead := do
  let core ← lmStart limit
  .ok { core, tcp := .waiting, udp := .waiting }

/-- An accept task finishes. When the accept loop has been left, `srv` has been dropped and with it the handle: the task goes on, and its result is dropped
(`/repo/letmeind/src/main.rs:157,186`). -/
def JoinTask.finish (t : JoinTask) (loop : AcceptTask) (result : JoinTask) : JoinTask :=
  match t with
  | .waiting => if loop = .ended then .gone else result
  | t => t

/-- `/repo/letmeind/src/server.rs:209-225` and `/repo/letmeind/src/main.rs:162-188` the loop takes a result; before it looks at it a new task is spawned. `ok` says whether the
connection's socket can be set up. -/
def LmAhead.pick (core : LmState) (t : JoinTask) (isTcp ok : Bool) : LmState × JoinTask :=
  match core.accept, t with
  | .accepting, .got => (if ok then core.accepted isTcp else core.acceptFailed, .waiting)
  | .accepting, .failed => (core.acceptFailed, .waiting)
  | _, t => (core, t)

/-- One event. A connection that waits for the loop holds a file descriptor; when the TCP task accepts, there is none yet. -/
def aheadStep (fdMax : Nat) (s : LmAhead) (ev : AheadEv) : LmAhead :=
  match s.core.phase with
  | .exited _ | .aborted => s
  | .running =>
    match ev with
    | .tcpArrives => { s with tcp := s.tcp.finish s.core.accept (if s.core.fds < fdMax then .got else .failed) }
    | .tcpFails => { s with tcp := s.tcp.finish s.core.accept .failed }
    | .udpArrives => { s with udp := s.udp.finish s.core.accept .got }
    | .udpFails => { s with udp := s.udp.finish s.core.accept .failed }
    | .pickTcp nodelay =>
      let (core, tcp) := LmAhead.pick s.core s.tcp true nodelay
      { s with core, tcp }
    | .pickUdp =>
      let (core, udp) := LmAhead.pick s.core s.udp false true
      { s with core, udp }
    | .sessionDone id => { s with core := { s.core with sessions := s.core.sessions.filter (fun c => c.id ≠ id) } }
    | .sessionPanic => { s with core := { s.core with phase := .aborted } }
    | .sigterm => { s with core := s.core.leave (.ok ()) }
    | .sigint => { s with core := s.core.leave .err }
    | .sighup => s
    | .exitRecv => if s.core.exitMsg then { s with core := s.core.leave .err } else s

/-- A history. -/
def aheadRun (fdMax : Nat) : LmAhead → List AheadEv → LmAhead
  | s, [] => s
  | s, ev :: rest => aheadRun fdMax (aheadStep fdMax s ev) rest

end Letmein
