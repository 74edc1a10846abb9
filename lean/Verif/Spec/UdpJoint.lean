import Verif.Model.UdpJoint
import Verif.Spec.Udp
import Verif.Spec.Session

/-!
# When an exchange over UDP is not disturbed
-/

namespace Letmein.Spec

open Letmein

/-- Nothing happens that is known to break exchanges: no queue of the server overflows (C30), the session does not
come across a rejected datagram (C31), the table is not full when the client's first datagram is read (C27). The client's socket is
connected, so it only receives what the server sends. -/
def Undisturbed (me you : SocketAddr) (J : UdpJoint) : ULabel → Prop
  | .plain => True
  | .client op => ∀ i, sockOf op = some i → i = .wouldBlock ∨ ∃ data, i = .dgram you data
  | .session op => ¬ Overflow J.ssock op ∧ ∀ i, sockOf op = some i → ¬ Rejected J.ssock i
  | .other op => OrderOk J.ssock op ∧ ¬ Overflow J.ssock op ∧
      ((dgramOf me op).isSome → Unconnected J.ssock me → J.ssock.disp.conn.length < J.ssock.disp.maxConn)

/-- Undisturbed runs. -/
inductive UdpRunTo (me you : SocketAddr) (sess : Prog Unit) (J : UdpJoint) : UdpJoint → Prop where
  | refl : UdpRunTo me you sess J J
  | step {J' l J''} : UdpRunTo me you sess J J' → UStep me you sess J' l J'' → Undisturbed me you J' l → UdpRunTo me you sess J J''

/-- Both sides have succeeded and nothing is left in transit. -/
structure UdpSucceeded (J : UdpJoint) : Prop where
  client : J.client = .ret (.ok ())
  server : J.server = .ended (.ok ())
  nothingLeft : J.c2s = [] ∧ J.s2c = []

/-- A holder of the key asks for a resource it may use; the server has been through the history `ops`, in which no queue overflowed,
and has no connection of the client's address. -/
structure UdpHonest (conf : Config) (max : Nat) (me : SocketAddr) (ops : List UdpOp) (u : UserId) (r : ResourceId) (key : Key) (res : Resource) : Prop where
  key : conf.key u = some key
  granted : Granted conf u r res
  someProto : res.tcp = true ∨ res.udp = true
  size : max * 4 < 2 ^ 64
  order : OrderLegal (UdpSrv.new max) ops
  noOverflow : NoOverflow (UdpSrv.new max) ops
  fresh : Unconnected (udpRun (UdpSrv.new max) ops).2 me

end Letmein.Spec
