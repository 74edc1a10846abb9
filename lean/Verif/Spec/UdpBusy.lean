import Verif.Model.UdpBusy
import Verif.Spec.Session

/-!
# What the outside sees of the UDP server

Counts and lists over the log of the server, stated with nothing but addresses and bytes.
-/

namespace Letmein.Spec

open Letmein Prog

/-- The bytes of a datagram that came in from `p`. -/
def fromAddr (p : SocketAddr) : BusyEv → Option Bytes
  | .rx q data => if q = p then some data else none
  | _ => none

/-- The bytes of a datagram that went out to `p`. -/
def toAddr (p : SocketAddr) : BusyEv → Option Bytes
  | .tx _ q data => if q = p then some data else none
  | _ => none

/-- All datagrams that came in from `p`, in order. -/
def cameFrom (p : SocketAddr) (log : List BusyEv) : List Bytes := log.filterMap (fromAddr p)

/-- All datagrams that went out to `p`, in order. -/
def wentTo (p : SocketAddr) (log : List BusyEv) : List Bytes := log.filterMap (toAddr p)

/-- Number of bytes in a list of datagrams. -/
def bytesIn (l : List Bytes) : Nat := (l.map List.length).sum

/-- `a` of `l`, each cut to its first 56 bytes, shorter ones left out. -/
def asMessages (l : List Bytes) : List Bytes := l.filterMap (fun d => if 56 ≤ d.length then some (d.take 56) else none)

/-- Everything that session `sid` asked of letmeinfwd. -/
def askedBy (S : UdpBusy) (sid : Nat) : List FwMessage :=
  match S.tasks[sid]? with
  | some t => fwRequests t.done
  | none => []

end Letmein.Spec
