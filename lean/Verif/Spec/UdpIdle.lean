import Verif.Spec.Udp

/-!
# How often the tasks of the UDP server wake up
-/

namespace Letmein.Spec

open Letmein

/-- The operation reads a datagram from the socket. -/
def Traffic (op : UdpOp) : Bool :=
  match sockOf op with
  | some (.dgram _ _) => true
  | _ => false

/-- Number of datagrams read, of any sender and any length. -/
def traffic (ops : List UdpOp) : Nat := ops.countP Traffic

/-- The accepting task is woken by a notification. -/
def AcceptNotified : UdpOp → Bool
  | .accept .changed _ => true
  | _ => false

/-- How often the accepting task is woken by notifications. -/
def acceptWakeups (ops : List UdpOp) : Nat := ops.countP AcceptNotified

/-- The task of an open session is woken by a notification. -/
def RecvNotified (s : UdpSrv) : UdpOp → Bool
  | .recv sid .changed _ =>
    match s.sessions[sid]? with
    | some se => !se.closed
    | none => false
  | _ => false

/-- How often tasks of sessions are woken by notifications. -/
def recvWakeups (s : UdpSrv) : List UdpOp → Nat
  | [] => 0
  | op :: rest => (if RecvNotified s op then 1 else 0) + recvWakeups (udpStep s op).2 rest

end Letmein.Spec
