import Verif.Model.FwServer
import Verif.Model.FwAccept

/-!
# The daemons: listening sockets, accept loops, termination

Models `/repo/letmein-systemd/src/lib.rs:90-182`, `/repo/letmeind/src/server.rs:77-224`, `/repo/letmeind/src/main.rs:121-216`,
`/repo/letmeinfwd/src/server.rs:147-255` and `/repo/letmeinfwd/src/main.rs:172-304`.
What the operating system answers is a parameter or an input of an operation. Directory and pid file creation, signal
registration and the seccomp filter (`Verif.Model.Seccomp`) are not part of this file: if one of them fails the daemon does not start.
-/

namespace Letmein

/-! ## Sockets from systemd -/

/-- The socket types told apart (`SO_TYPE`). -/
inductive SockType where
  | stream | dgram | other
  deriving DecidableEq, Repr

/-- The address families told apart (`getsockname`). -/
inductive SockFamily where
  | inet | inet6 | unix | other
  deriving DecidableEq, Repr

/-- A file descriptor passed by systemd, as the checks see it: `none` if the system call fails. -/
structure PassedFd where
  fd : Nat
  isSocket : Bool
  sockType : Option SockType
  family : Option SockFamily
  deriving DecidableEq

/-- `/repo/letmein-systemd/src/lib.rs:120-134` `SystemdSocket`. -/
inductive SystemdSocket where
  | Udp (fd : Nat)
  | Tcp (fd : Nat)
  | Unix (fd : Nat)
  deriving DecidableEq, Repr

/-- Cargo features of `letmein-systemd`: letmeind is built with `udp` and `tcp`, letmeinfwd with `unix`
(`/repo/letmeind/Cargo.toml:28`, `/repo/letmeinfwd/Cargo.toml:27`). A build of the whole workspace may unite them. -/
structure SystemdFeatures where
  udp : Bool
  tcp : Bool
  unix : Bool

/-- `/repo/letmein-systemd/src/lib.rs:90-98` `is_udp_socket`. -/
def isUdpSocket (f : PassedFd) : Bool :=
  f.isSocket && f.sockType = some .dgram && (f.family = some .inet || f.family = some .inet6)

/-- `/repo/letmein-systemd/src/lib.rs:100-108` `is_tcp_socket`. -/
def isTcpSocket (f : PassedFd) : Bool :=
  f.isSocket && f.sockType = some .stream && (f.family = some .inet || f.family = some .inet6)

/-- `/repo/letmein-systemd/src/lib.rs:110-118` `is_unix_socket`. -/
def isUnixSocket (f : PassedFd) : Bool := f.isSocket && f.sockType = some .stream && f.family = some .unix

/-- `/repo/letmein-systemd/src/lib.rs:144-176` the body of the loop of `get_all`. -/
def classifyFd (feat : SystemdFeatures) (f : PassedFd) : R SystemdSocket :=
  if feat.udp && isUdpSocket f then .ok (.Udp f.fd)
  else if feat.tcp && isTcpSocket f then .ok (.Tcp f.fd)
  else if feat.unix && isUnixSocket f then .ok (.Unix f.fd)
  else .err

/-- `/repo/letmein-systemd/src/lib.rs:144-176` the loop of `get_all`. -/
def systemdSockets (feat : SystemdFeatures) : List PassedFd → R (List SystemdSocket)
  | [] => .ok []
  | f :: rest => do
    let s ← classifyFd feat f
    let l ← systemdSockets feat rest
    .ok (s :: l)

/-- What systemd passes: was the system booted by it (`sd_notify::booted`), and the result of `sd_notify::listen_fds`. -/
structure SystemdEnv where
  booted : Bool
  fds : R (List PassedFd)

/-- `/repo/letmein-systemd/src/lib.rs:141-178` `SystemdSocket::get_all`. -/
def SystemdSocket.getAll (feat : SystemdFeatures) (env : SystemdEnv) : R (List SystemdSocket) :=
  if env.booted then do
    let fds ← env.fds
    systemdSockets feat fds
  else .ok []

/-! ## letmeind: listening -/

/-- Where a listening socket comes from: passed by systemd, or bound to `[::]` and the control port. -/
inductive Listener where
  | systemd (fd : Nat)
  | bound (port : UInt16)
  deriving DecidableEq, Repr

/-- `/repo/letmeind/src/server.rs:110-115` the sockets of `Server`. -/
structure Listening where
  tcp : Option Listener
  udp : Option Listener
  deriving DecidableEq, Repr

/-- `/repo/letmeind/src/server.rs:124-168` the loop over the sockets from systemd. `usable` says whether switching the socket to
non-blocking mode and converting it succeeds. -/
def serverSockets (port : ControlPort) (usable : Nat → Bool) : Listening → List SystemdSocket → R Listening
  | l, [] => .ok l
  | l, .Tcp fd :: rest =>
    if l.tcp.isSome then .err
    else if !port.tcp then serverSockets port usable l rest
    else if !usable fd then .err
    else serverSockets port usable { l with tcp := some (.systemd fd) } rest
  | l, .Udp fd :: rest =>
    if l.udp.isSome then .err
    else if !port.udp then serverSockets port usable l rest
    else if !usable fd then .err
    else serverSockets port usable { l with udp := some (.systemd fd) } rest
  | _, .Unix _ :: _ => .err

/-- `/repo/letmeind/src/server.rs:121-173` the part of `Server::new` that deals with systemd. -/
def serverFromSystemd (port : ControlPort) (noSystemd : Bool) (sockets : R (List SystemdSocket)) (usable : Nat → Bool)
    (notifyOk : Bool) : R Listening :=
  if noSystemd then .ok { tcp := none, udp := none }
  else do
    let l ← sockets
    let l ← serverSockets port usable { tcp := none, udp := none } l
    if (l.tcp.isSome || l.udp.isSome) && !notifyOk then .err else .ok l

/-- `/repo/letmeind/src/server.rs:179-185,187-196` bind a socket if configured. -/
def bindIf (wanted bindOk : Bool) (port : UInt16) : R (Option Listener) :=
  if wanted then (if bindOk then .ok (some (.bound port)) else .err) else .ok none

/-- `/repo/letmeind/src/server.rs:118-207` `Server::new`. -/
def serverNew (port : ControlPort) (noSystemd : Bool) (sockets : R (List SystemdSocket)) (usable : Nat → Bool)
    (notifyOk bindTcpOk bindUdpOk : Bool) : R Listening := do
  let l ← serverFromSystemd port noSystemd sockets usable notifyOk
  if l.tcp.isNone && l.udp.isNone then do
    let tcp ← bindIf port.tcp bindTcpOk port.port
    let udp ← bindIf port.udp bindUdpOk port.port
    .ok { tcp, udp }
  else .ok l

/-! ## letmeind: accepting and terminating -/

/-- A connection; `tcp` ones hold a file descriptor of their own. -/
structure DConn where
  id : Nat
  tcp : Bool
  deriving DecidableEq, Repr

/-- `/repo/letmeind/src/main.rs:157-190` where the accept task is. -/
inductive AcceptTask where
  /-- in `srv.accept()` -/
  | accepting
  /-- in `conn_semaphore.acquire()` -/
  | acquiring (c : DConn)
  /-- the loop has been left -/
  | ended
  deriving DecidableEq, Repr

/-- The process. -/
inductive LmPhase where
  | running
  /-- `main` has returned; `ok` is exit status 0 -/
  | exited (code : R Unit)
  /-- a panic has aborted the process (`/repo/Cargo.toml` `panic = "abort"`) -/
  | aborted
  deriving DecidableEq, Repr

/-- letmeind after start-up. `sessions`: the tasks of `/repo/letmeind/src/main.rs:168-179` that have not finished. -/
structure LmState where
  phase : LmPhase
  accept : AcceptTask
  permits : Nat
  sessions : List DConn
  nextId : Nat
  /-- a message waits in the channel `exit_sock` -/
  exitMsg : Bool
  deriving DecidableEq, Repr

/-- What can happen. -/
inductive LmOp where
  /-- a TCP connection is waiting and the accept task gets round to it -/
  | connectTcp
  /-- a UDP peer is waiting and the accept task gets round to it -/
  | connectUdp
  /-- `srv.accept()` fails for a reason other than a lack of file descriptors -/
  | acceptError
  /-- `proto.run()` of this session returns and `conn.close()` has been awaited: `/repo/letmeind/src/main.rs:168-179` -/
  | sessionDone (id : Nat)
  /-- a session panics -/
  | sessionPanic
  | sigterm
  | sigint
  | sighup
  /-- the main task takes the message from `exit_sock`: `/repo/letmeind/src/main.rs:208-211` -/
  | exitRecv
  deriving DecidableEq, Repr

/-- `tokio::sync::Semaphore::MAX_PERMITS`; `Semaphore::new` panics above (`usize` has 64 bits). -/
abbrev MAX_PERMITS : Nat := 2 ^ 61 - 1

/-- `/repo/letmeind/src/main.rs:149-160` the state in which the tasks start; `limit` is `--num-connections`. -/
def lmStart (limit : Nat) : R LmState :=
  if limit > MAX_PERMITS then .panic
  else .ok { phase := .running, accept := .accepting, permits := limit, sessions := [], nextId := 0, exitMsg := false }

/-- `Semaphore::acquire` without other waiters: the remaining permits, or wait. -/
def semAcquire : Nat → Option Nat
  | 0 => none
  | n + 1 => some n

/-- Dropping the permit. -/
def semRelease (n : Nat) : Nat := n + 1

/-- `/repo/letmeind/src/main.rs:163-183` a connection has been accepted. The variable `_permit` lives until the end of the
`if let` block (`:181`), that is: until the session's task has been spawned. -/
def LmState.accepted (s : LmState) (tcp : Bool) : LmState :=
  let c : DConn := { id := s.nextId, tcp }
  let s := { s with nextId := s.nextId + 1 }
  match semAcquire s.permits with
  | none => { s with accept := .acquiring c }
  | some p =>
    let s := { s with permits := p, sessions := s.sessions ++ [c] }
    { s with permits := semRelease s.permits }

/-- `/repo/letmeind/src/main.rs:184-187` `srv.accept()` has failed. -/
def LmState.acceptFailed (s : LmState) : LmState := { s with accept := .ended, exitMsg := true }

/-- The connections whose `close()` has not been called. -/
def LmState.unclosed (s : LmState) : List DConn :=
  s.sessions ++ (match s.accept with
    | .acquiring c => [c]
    | _ => [])

/-- `/repo/letmeind/src/main.rs:216,219-234` the main task returns, `main` returns and drops the runtime, which drops all tasks.
Dropping a `Connection` that has not been closed fails an assertion (`/repo/letmeind/src/server.rs:78-83`). -/
def LmState.leave (s : LmState) (code : R Unit) : LmState :=
  { s with phase := if s.unclosed.isEmpty then .exited code else .aborted }

/-- Number of file descriptors the connections hold. -/
def LmState.fds (s : LmState) : Nat := (s.unclosed.filter (·.tcp)).length

/-- `/repo/letmeind/src/main.rs:157-214` one event. At most `fdMax` file descriptors are available for connections:
`accept` fails with `EMFILE` when they are used up. (Sessions also use one for letmeinfwd for a short time; not counted.) -/
def lmStep (fdMax : Nat) (s : LmState) (op : LmOp) : LmState :=
  match s.phase with
  | .exited _ | .aborted => s
  | .running =>
    match op with
    | .connectTcp =>
      match s.accept with
      | .accepting => if s.fds < fdMax then s.accepted true else s.acceptFailed
      | _ => s
    | .connectUdp =>
      match s.accept with
      | .accepting => s.accepted false
      | _ => s
    | .acceptError =>
      match s.accept with
      | .accepting => s.acceptFailed
      | _ => s
    | .sessionDone id => { s with sessions := s.sessions.filter (fun c => c.id ≠ id) }
    | .sessionPanic => { s with phase := .aborted }
    | .sigterm => s.leave (.ok ())
    | .sigint => s.leave .err
    | .sighup => s
    | .exitRecv => if s.exitMsg then s.leave .err else s

/-- A history. -/
def lmRun (fdMax : Nat) : LmState → List LmOp → LmState
  | s, [] => s
  | s, op :: rest => lmRun fdMax (lmStep fdMax s op) rest

/-! ## letmeinfwd: listening -/

/-- Where the Unix socket comes from. A bound one has an owner, a group and a mode (`none`: as created, in test mode). -/
inductive UnixListener where
  | systemd (fd : Nat)
  | bound (ownerMode : Option (UInt32 × UInt32 × Nat))
  deriving DecidableEq, Repr

/-- The answers of the operating system in `FirewallServer::new`. `socketExists`: the path exists and is a socket. -/
structure UnixEnv where
  usable : Nat → Bool
  notifyOk : Bool
  socketExists : Bool
  removeOk : Bool
  bindOk : Bool
  ownerModeOk : Bool

/-- `/repo/letmeinfwd/src/server.rs:179-205` without systemd. -/
def fwBind (testMode : Bool) (gid : UInt32) (env : UnixEnv) : R UnixListener :=
  if env.socketExists && !env.removeOk then .err
  else if !env.bindOk then .err
  else if testMode then .ok (.bound none)
  else if !env.ownerModeOk then .err
  else .ok (.bound (some (0, gid, 0o660)))

/-- `/repo/letmeinfwd/src/server.rs:153-206` `FirewallServer::new`. -/
def fwServerNew (noSystemd testMode : Bool) (gid : UInt32) (sockets : R (List SystemdSocket)) (env : UnixEnv) : R UnixListener :=
  if !noSystemd then
    match sockets with
    | .ok (.Unix fd :: _) => if !env.usable fd then .err else if !env.notifyOk then .err else .ok (.systemd fd)
    | .panic => .panic
    | _ => .err
  else fwBind testMode gid env

/-! ## letmeinfwd: accepting and terminating -/

/-- Values fixed at start-up. -/
structure FwdSetup where
  conf : Config
  testMode : Bool
  ids : UInt32 × UInt32

/-- letmeinfwd after start-up: `FwdState` with the accept task and the connections being served. -/
structure FwdLife where
  core : FwdState
  accept : AcceptTask
  permits : Nat
  exitMsg : Bool
  conns : List Nat
  nextId : Nat

/-- What can happen. -/
inductive FwdEvent where
  /-- a process connects to the Unix socket: its credentials, and the content of letmeind's pid file at that time -/
  | connect (cred : Option Cred) (pidFile : Option Str)
  /-- the listener's `accept` fails -/
  | acceptError
  /-- a message (or failure) arrives on the connection -/
  | message (id : Nat) (rx : FwRecvOut) (now : Nat) (nftOk : Bool)
  | maintain (now : Nat) (env : NftEnv)
  /-- SIGTERM or SIGINT -/
  | signal (nftOk : Bool)
  | sighup
  /-- the main task takes the message of the accept task or of the maintenance task -/
  | exitRecv (nftOk : Bool)
  | foreign (k : Kernel)
  | reorder (leases : LeaseMap)

/-- `/repo/letmeinfwd/src/main.rs:216-244` the accept loop's turn. Serving a connection is one call of `handle_message`.
The permit is dropped as soon as the task has been spawned, as in `LmState.accepted`. -/
def FwdLife.connected (setup : FwdSetup) (s : FwdLife) (cred : Option Cred) (pidFile : Option Str) : FwdLife :=
  match fwAccept setup.testMode setup.ids cred pidFile with
  | .ok _ =>
    let c := s.nextId
    let s := { s with nextId := s.nextId + 1 }
    match semAcquire s.permits with
    | none => { s with accept := .acquiring { id := c, tcp := false } }
    | some p =>
      let s := { s with permits := p, conns := s.conns ++ [c] }
      { s with permits := semRelease s.permits }
  | .err => { s with accept := .ended, exitMsg := true }
  | .panic => { s with core := { s.core with phase := .crashed } }

/-- Is the process still there? -/
def FwdPhase.alive : FwdPhase → Bool
  | .running | .stopping => true
  | .stopped | .crashed => false

/-- The operation on the firewall that an event amounts to. -/
def FwdLife.opOf (s : FwdLife) : FwdEvent → Option FwdOp
  | .message id rx now nftOk => if id ∈ s.conns then some (.request rx now nftOk) else none
  | .maintain now env => some (.maintain now env)
  | .signal nftOk => some (.terminate nftOk)
  | .exitRecv nftOk => if s.exitMsg ∨ s.core.phase = .stopping then some (.terminate nftOk) else none
  | .foreign k => some (.foreign k)
  | .reorder l => some (.reorder l)
  | _ => none

/-- `/repo/letmeinfwd/src/main.rs:208-303` one event. -/
def lifeStep (setup : FwdSetup) (s : FwdLife) (ev : FwdEvent) : FwdLife :=
  match s.opOf ev with
  | some op =>
    let s' := { s with core := (fwdStep setup.conf s.core op).2 }
    match ev with
    | .message id _ _ _ => { s' with conns := s'.conns.filter (· ≠ id) }
    | _ => s'
  | none =>
    if s.core.phase.alive ∧ s.accept = .accepting then
      match ev with
      | .connect cred pidFile => s.connected setup cred pidFile
      | .acceptError => { s with accept := .ended, exitMsg := true }
      | _ => s
    else s

/-- A history. -/
def lifeRun (setup : FwdSetup) : FwdLife → List FwdEvent → FwdLife
  | s, [] => s
  | s, ev :: rest => lifeRun setup (lifeStep setup s ev) rest

/-- `/repo/letmeinfwd/src/main.rs:172-214` start-up from reading the user database on, as far as modelled: the state of the
kernel afterwards and the daemon if it runs. `listener` is the outcome of `FirewallServer::new` and of what follows it. -/
def lifeStart (testMode : Bool) (passwd group : Option Str) (conf : Config) (k : Kernel) (nftOk : Bool)
    (limit : Nat) (listener : UInt32 × UInt32 → R UnixListener) : Kernel × R (FwdSetup × FwdLife) :=
  match readEtcPasswd testMode passwd group with
  | .ok ids =>
    match NftFirewall.new conf k nftOk with
    | (.ok fw, k') =>
      (k', match listener ids with
        | .ok _ =>
          if limit > MAX_PERMITS then .panic
          else .ok ({ conf, testMode, ids },
            { core := { phase := .running, fw, kernel := k' }, accept := .accepting, permits := limit, exitMsg := false,
              conns := [], nextId := 0 })
        | .err => .err
        | .panic => .panic)
    | (.err, k') => (k', .err)
    | (.panic, k') => (k', .panic)
  | .err => (k, .err)
  | .panic => (k, .panic)

end Letmein
