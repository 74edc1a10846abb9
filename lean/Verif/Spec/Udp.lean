import Verif.Model.Udp

/-!
# Specification vocabulary for the UDP server

Predicates on histories: what was read from the socket, what sessions began, what they received.
-/

namespace Letmein.Spec

open Letmein

/-- What an operation reads from the socket. -/
def sockOf : UdpOp → Option SockIn
  | .accept _ i => some i
  | .recv _ _ i => some i
  | .close _ => none
  | .reorder _ => none

/-- The message a peer's datagram carries: its first 56 bytes, if it has that many. -/
def dgramOf (p : SocketAddr) (op : UdpOp) : Option Bytes :=
  match sockOf op with
  | some (.dgram q data) => if q = p ∧ 56 ≤ data.length then some (data.take 56) else none
  | _ => none

/-- The datagrams of a peer read from the socket, in order. -/
def arrivals (p : SocketAddr) (evs : List (UdpOp × UdpOut)) : List Bytes := evs.filterMap (fun e => dgramOf p e.1)

/-- The peer of a session that begins. -/
def acceptOf : UdpOp × UdpOut → Option SocketAddr
  | (_, .accepted p) => some p
  | _ => none

/-- The peers of the sessions begun, in order. -/
def accepts (evs : List (UdpOp × UdpOut)) : List SocketAddr := evs.filterMap acceptOf

/-- What a session of peer `p` receives in this event; `peers` are the peers of the sessions by number. -/
def deliveryOf (peers : List SocketAddr) (p : SocketAddr) : UdpOp × UdpOut → Option Bytes
  | (.recv sid _ _, .got b) => if peers[sid]? = some p then some b.val else none
  | _ => none

/-- Everything sessions of peer `p` receive, in order. -/
def deliveries (p : SocketAddr) (evs : List (UdpOp × UdpOut)) : List Bytes := evs.filterMap (deliveryOf (accepts evs) p)

/-- What one session receives, in order. -/
def deliveriesTo (sid : Nat) (evs : List (UdpOp × UdpOut)) : List Bytes :=
  evs.filterMap (fun e => match e with
    | (.recv sid' _ _, .got b) => if sid' = sid then some b.val else none
    | _ => none)

/-- Reordering the map does not change its content. -/
def OrderOk (s : UdpSrv) : UdpOp → Prop
  | .reorder conn => conn.Perm s.disp.conn
  | _ => True

/-- A history in which the map's order changes arbitrarily, but not its content. -/
def OrderLegal (s : UdpSrv) : List UdpOp → Prop
  | [] => True
  | op :: rest => OrderOk s op ∧ OrderLegal (udpStep s op).2 rest

/-- The peer has a connection with four queued datagrams. -/
def QueueFull (s : UdpSrv) (p : SocketAddr) : Prop := ∃ c, assocGet s.disp.conn p = some c ∧ c.rxQueue.length = 4

/-- The operation reads a (sufficiently long) datagram of a peer whose queue is full. -/
def Overflow (s : UdpSrv) (op : UdpOp) : Prop := ∃ p b, dgramOf p op = some b ∧ QueueFull s p

/-- In this history no queue ever overflows. -/
def NoOverflow (s : UdpSrv) : List UdpOp → Prop
  | [] => True
  | op :: rest => ¬ Overflow s op ∧ NoOverflow (udpStep s op).2 rest

/-- The peer's connection waits to be accepted. -/
def Waiting (s : UdpSrv) (p : SocketAddr) : Prop := ∃ c, assocGet s.disp.conn p = some c ∧ c.accepted = false

/-- The peer has no connection. -/
def Unconnected (s : UdpSrv) (p : SocketAddr) : Prop := assocGet s.disp.conn p = none

/-- The datagrams waiting in the peer's connection. -/
def queueOf (d : UdpDisp) (p : SocketAddr) : List Bytes :=
  match assocGet d.conn p with
  | some c => c.rxQueue.map (·.val)
  | none => []

/-- The server does not take what the socket returns: an error, a short datagram, a datagram for a full queue, or a new peer
while the table is full. -/
def Rejected (s : UdpSrv) : SockIn → Prop
  | .wouldBlock => False
  | .fail => True
  | .dgram p data => data.length < 56 ∨ QueueFull s p ∨ (Unconnected s p ∧ s.disp.conn.length = s.disp.maxConn)

/-- The session exists and has not ended. -/
def OpenSession (s : UdpSrv) (sid : Nat) (p : SocketAddr) : Prop := s.sessions[sid]? = some { peer := p, closed := false }

/-- The operation reads from the socket. -/
def Reads (s : UdpSrv) : UdpOp → Prop
  | .accept _ _ => True
  | .recv sid _ _ => ∃ p, OpenSession s sid p
  | _ => False

/-- The operation does nothing that may lose a datagram of `p`: it takes the datagram if there is one and does not end a
session of `p`; and the server does not crash. -/
structure Harmless (p : SocketAddr) (s : UdpSrv) (op : UdpOp) : Prop where
  alive : (udpStep s op).2.crashed = false
  takes : ∀ b, dgramOf p op = some b → Reads s op ∧ ¬ QueueFull s p ∧ (Unconnected s p → s.disp.conn.length < s.disp.maxConn)
  stays : ∀ sid, op = .close sid → ¬ OpenSession s sid p

/-- A history of such operations. -/
def HarmlessRun (p : SocketAddr) (s : UdpSrv) : List UdpOp → Prop
  | [] => True
  | op :: rest => Harmless p s op ∧ HarmlessRun p (udpStep s op).2 rest

/-- A task woken by a watch channel was woken by an unseen change. -/
def WakeOk (s : UdpSrv) : UdpOp → Prop
  | .accept .changed _ => s.disp.acceptSig = true
  | .recv _ .changed _ => s.disp.recvSig = true
  | _ => True

/-- A history in which tasks wake up for a reason. -/
def WakeLegal (s : UdpSrv) : List UdpOp → Prop
  | [] => True
  | op :: rest => WakeOk s op ∧ WakeLegal (udpStep s op).2 rest

end Letmein.Spec
