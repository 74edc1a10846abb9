import Verif.Model.Wire
import Verif.Model.FwWire
import Verif.Model.ConfTypes

/-!
# The UDP dispatcher

Models `/repo/letmein-proto/src/socket.rs:30-323` (`UdpConn`, `UdpDispatcherRx`, `UdpDispatcher`) and the UDP half of
`NetSocket` (`:425-430,461-466,475-495`), with the sessions letmeind runs on top of it
(`/repo/letmeind/src/server.rs:209-224`, `/repo/letmeind/src/main.rs:157-190`).

The program is single threaded and the dispatcher's mutex is held over synchronous code only, so every operation below is
atomic. What the socket returns is an input of each operation. `HashMap` is an association list whose order is arbitrary
(`UdpOp.reorder`). `usize` has 64 bits. The two `watch` channels are flags: "changed since last seen".
Sending (`:304-317`) changes none of this state and is not modelled. Waiting (`sleep`, `readable`) is the environment's choice of when an operation happens.
-/

namespace Letmein

/-- `std::net::SocketAddr` (IPv6 flow info and scope id are not modelled). -/
structure SocketAddr where
  ip : IpAddr
  port : UInt16
  deriving DecidableEq

/-- `HashMap::remove`. -/
def assocErase {κ ν : Type} [DecidableEq κ] (l : List (κ × ν)) (k : κ) : List (κ × ν) := l.filter (fun e => e.1 ≠ k)

/-- `HashMap::insert`. -/
def assocSet {κ ν : Type} [DecidableEq κ] (l : List (κ × ν)) (k : κ) (v : ν) : List (κ × ν) := (k, v) :: assocErase l k

/-- `/repo/letmein-proto/src/lib.rs:103` `UDP_RX_QUEUE_SIZE`. -/
abbrev UDP_RX_QUEUE_SIZE : Nat := 4

/-- `usize::MAX`. -/
abbrev USIZE_MAX : Nat := 2 ^ 64 - 1

/-- `/repo/letmein-proto/src/socket.rs:30-41` `UdpConn`. -/
structure UdpConn where
  rxQueue : List (Arr MSG_SIZE)
  peerAddr : SocketAddr
  accepted : Bool
  deriving DecidableEq

/-- `/repo/letmein-proto/src/socket.rs:56-66,210-226` `UdpDispatcherRx` and the two watch channels of `UdpDispatcher`. -/
structure UdpDisp where
  conn : List (SocketAddr × UdpConn)
  maxConn : Nat
  nrQueued : Nat
  acceptSig : Bool
  recvSig : Bool

/-- `/repo/letmein-proto/src/socket.rs:71-77,232-241` `UdpDispatcherRx::new`, `UdpDispatcher::new`. -/
def UdpDisp.new (maxConn : Nat) : UdpDisp :=
  { conn := [], maxConn, nrQueued := 0, acceptSig := false, recvSig := false }

/-- What `UdpSocket::try_recv_from` finds: a datagram of any length, nothing, or an error. -/
inductive SockIn where
  | dgram (src : SocketAddr) (data : Bytes)
  | wouldBlock
  | fail
  deriving DecidableEq

/-- `/repo/letmein-proto/src/socket.rs:80-139` `try_recv`. The kernel copies at most `MSG_SIZE` bytes of the datagram into the
buffer, drops the rest and returns the number of bytes copied (`recvfrom(2)` without `MSG_TRUNC`). -/
def UdpDisp.tryRecv (d : UdpDisp) : SockIn → R Unit × UdpDisp
  | .wouldBlock => (.ok (), d)
  | .fail => (.err, d)
  | .dgram src data =>
    if h : (data.take MSG_SIZE).length = MSG_SIZE then
      if ¬ d.conn.length ≤ d.maxConn then (.panic, d)
      else
        let c := (assocGet d.conn src).getD { rxQueue := [], peerAddr := src, accepted := false }
        if ¬ c.rxQueue.length ≤ UDP_RX_QUEUE_SIZE then (.panic, d)
        else if c.rxQueue.length = UDP_RX_QUEUE_SIZE then (.err, { d with conn := assocErase d.conn src })
        else
          let conn := assocSet d.conn src { c with rxQueue := c.rxQueue ++ [⟨data.take MSG_SIZE, h⟩] }
          if conn.length > d.maxConn then (.err, { d with conn := assocErase conn src })
          else if ¬ d.nrQueued + 1 ≤ USIZE_MAX then (.panic, d)
          else if ¬ d.maxConn * UDP_RX_QUEUE_SIZE ≤ USIZE_MAX then (.panic, d)
          else if ¬ d.nrQueued + 1 ≤ d.maxConn * UDP_RX_QUEUE_SIZE then (.panic, d)
          else if !c.accepted then
            (.ok (), { d with conn := conn, nrQueued := d.nrQueued + 1, acceptSig := true, recvSig := true })
          else (.ok (), { d with conn := conn, nrQueued := d.nrQueued + 1 })
    else (.err, d)

/-- `/repo/letmein-proto/src/socket.rs:142-150` `recv_notify`. -/
def UdpDisp.recvNotify (d : UdpDisp) : UdpDisp := if d.nrQueued > 0 then { d with recvSig := true } else d

/-- `/repo/letmein-proto/src/socket.rs:165-170` the loop of `try_accept`. -/
def acceptFirst : List (SocketAddr × UdpConn) → Option (SocketAddr × List (SocketAddr × UdpConn))
  | [] => none
  | (k, c) :: rest =>
    if !c.accepted then some (c.peerAddr, (k, { c with accepted := true }) :: rest)
    else
      match acceptFirst rest with
      | none => none
      | some (p, rest') => some (p, (k, c) :: rest')

/-- `/repo/letmein-proto/src/socket.rs:153-173` `try_accept`. -/
def UdpDisp.tryAccept (d : UdpDisp) (i : SockIn) : R (Option SocketAddr) × UdpDisp :=
  match d.tryRecv i with
  | (.panic, d) => (.panic, d)
  | (.err, d) => (.ok none, d)
  | (.ok _, d) =>
    match acceptFirst d.conn with
    | some (p, conn) => (.ok (some p), { d with conn := conn })
    | none => (.ok none, d.recvNotify)

/-- `/repo/letmein-proto/src/socket.rs:176-193` `try_recv_from`. -/
def UdpDisp.tryRecvFrom (d : UdpDisp) (peer : SocketAddr) (i : SockIn) : R (Option (Arr MSG_SIZE)) × UdpDisp :=
  match d.tryRecv i with
  | (.panic, d) => (.panic, d)
  | (.err, d) => (.err, d)
  | (.ok _, d) =>
    match assocGet d.conn peer with
    | none => (.ok none, d.recvNotify)
    | some c =>
      match c.rxQueue with
      | [] => (.ok none, d.recvNotify)
      | buf :: q =>
        if d.nrQueued = 0 then (.panic, d)
        else
          let d := { d with conn := assocSet d.conn peer { c with rxQueue := q }, nrQueued := d.nrQueued - 1 }
          (.ok (some buf), d.recvNotify)

/-- `/repo/letmein-proto/src/socket.rs:197-199` the number of datagrams queued for a peer. -/
def UdpDisp.queueLen (d : UdpDisp) (peer : SocketAddr) : Nat :=
  match assocGet d.conn peer with
  | some c => c.rxQueue.length
  | none => 0

/-- `/repo/letmein-proto/src/socket.rs:196-204` `disconnect`. -/
def UdpDisp.disconnect (d : UdpDisp) (peer : SocketAddr) : R Unit × UdpDisp :=
  let len := d.queueLen peer
  if d.nrQueued < len then (.panic, d)
  else
    let d := { d with nrQueued := d.nrQueued - len, conn := assocErase d.conn peer }
    if d.conn.isEmpty ∧ d.nrQueued ≠ 0 then (.panic, d) else (.ok (), d)

/-- `/repo/letmein-proto/src/socket.rs:325-357` the UDP variant of `NetSocket`. -/
structure UdpSession where
  peer : SocketAddr
  closed : Bool
  deriving DecidableEq

/-- The dispatcher and the sessions accepted so far, oldest first (a session is known by its index). -/
structure UdpSrv where
  disp : UdpDisp
  sessions : List UdpSession
  /-- a panic has aborted the process -/
  crashed : Bool

/-- `/repo/letmeind/src/server.rs:118-207` the UDP part of a newly started server. -/
def UdpSrv.new (maxConn : Nat) : UdpSrv := { disp := UdpDisp.new maxConn, sessions := [], crashed := false }

/-- What woke a waiting task (`/repo/letmein-proto/src/socket.rs:249-252,279-282`). -/
inductive Wake where
  | readable
  | changed
  deriving DecidableEq

/-- `/repo/letmein-proto/src/socket.rs:248-253` an accepting task has been woken; `changed` marks the signal as seen. -/
def wakeAccept (d : UdpDisp) (w : Wake) : UdpDisp := if w = .changed then { d with acceptSig := false } else d

/-- `/repo/letmein-proto/src/socket.rs:278-283` a receiving task has been woken; `changed` marks the signal as seen. -/
def wakeRecv (d : UdpDisp) (w : Wake) : UdpDisp := if w = .changed then { d with recvSig := false } else d

/-- What can happen. -/
inductive UdpOp where
  /-- one round of the loop of `UdpDispatcher::accept` -/
  | accept (w : Wake) (i : SockIn)
  /-- one round of the loop of `UdpDispatcher::recv_from`, in session `sid` -/
  | recv (sid : Nat) (w : Wake) (i : SockIn)
  /-- session `sid` ends -/
  | close (sid : Nat)
  /-- the map's iteration order changes -/
  | reorder (conn : List (SocketAddr × UdpConn))

/-- The visible outcome of an operation. -/
inductive UdpOut where
  | none
  /-- a session with this peer begins -/
  | accepted (peer : SocketAddr)
  /-- the session receives a datagram -/
  | got (data : Arr MSG_SIZE)
  /-- the session's receive fails -/
  | failed
  | panic
  deriving DecidableEq

/-- One operation.
`accept`: `/repo/letmein-proto/src/socket.rs:246-269`, then a session begins (`/repo/letmeind/src/server.rs:217-222`).
`recv`: `:427-430,275-299,461-464`. `close`: `:475-486`. -/
def udpStep (s : UdpSrv) (op : UdpOp) : UdpOut × UdpSrv :=
  if s.crashed then (.none, s) else
  match op with
  | .reorder conn => (.none, { s with disp := { s.disp with conn := conn } })
  | .accept w i =>
    match (wakeAccept s.disp w).tryAccept i with
    | (.panic, d) => (.panic, { s with disp := d, crashed := true })
    | (.ok (some p), d) => (.accepted p, { s with disp := d, sessions := s.sessions ++ [{ peer := p, closed := false }] })
    | (_, d) => (.none, { s with disp := d })
  | .recv sid w i =>
    match s.sessions[sid]? with
    | none => (.none, s)
    | some se =>
      if se.closed then (.failed, s)
      else
        match (wakeRecv s.disp w).tryRecvFrom se.peer i with
        | (.panic, d) => (.panic, { s with disp := d, crashed := true })
        | (.ok (some b), d) => (.got b, { s with disp := d })
        | (.ok Option.none, d) => (.none, { s with disp := d })
        | (.err, d) => (.failed, { s with disp := d })
  | .close sid =>
    match s.sessions[sid]? with
    | none => (.none, s)
    | some se =>
      if se.closed then (.none, s)
      else
        let sessions := s.sessions.set sid { se with closed := true }
        match s.disp.disconnect se.peer with
        | (.panic, d) => (.panic, { s with disp := d, sessions, crashed := true })
        | (_, d) => (.none, { s with disp := d, sessions })

/-- A history: operations with outcomes, and the state reached. -/
def udpRun (s : UdpSrv) : List UdpOp → List (UdpOp × UdpOut) × UdpSrv
  | [] => ([], s)
  | op :: rest =>
    let r := udpStep s op
    let q := udpRun r.2 rest
    ((op, r.1) :: q.1, q.2)

end Letmein
