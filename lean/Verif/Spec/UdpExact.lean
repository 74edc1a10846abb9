import Verif.Spec.Udp

/-!
# Specification vocabulary: overflowed queues and crashes of the UDP server
-/

namespace Letmein.Spec

open Letmein

/-- The operation reads a datagram of a peer whose queue is full. -/
def Overruns (s : UdpSrv) (op : UdpOp) : Prop := Reads s op ∧ Overflow s op

/-- This many queues overflow in the history. -/
def OverrunCount (s : UdpSrv) : List UdpOp → Nat → Prop
  | [], n => n = 0
  | op :: rest, n =>
    (Overruns s op ∧ ∃ m, n = m + 1 ∧ OverrunCount (udpStep s op).2 rest m) ∨
    (¬ Overruns s op ∧ OverrunCount (udpStep s op).2 rest n)

/-- The number of datagrams waiting in all connections. -/
def waitingDgrams (s : UdpSrv) : Nat := (s.disp.conn.map (fun e => e.2.rxQueue.length)).sum

/-- The operation reads a datagram that is put into a queue. -/
def TakesDgram (s : UdpSrv) (op : UdpOp) : Prop :=
  Reads s op ∧ ∃ p data, sockOf op = some (.dgram p data) ∧ ¬ Rejected s (.dgram p data)

/-- The operation ends a session, and no connection is left. -/
def EndsLast (s : UdpSrv) (op : UdpOp) : Prop := ∃ sid p, op = .close sid ∧ OpenSession s sid p ∧ ∀ e ∈ s.disp.conn, e.1 = p

end Letmein.Spec
