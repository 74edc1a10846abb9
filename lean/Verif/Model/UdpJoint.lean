import Verif.Model.Joint
import Verif.Model.Udp

/-!
# Client and session over UDP

As `Verif.Model.Joint`, but the control connection is UDP: each side has its dispatcher, the server's is shared with all other
peers. Datagrams between the two wait in the receive buffer of the kernel and may be read in any order; none is lost or
duplicated there. Sends, the random generator and letmeinfwd do not fail (the situation of C14). What other peers send, when
their sessions run and end, and when which task looks at the socket is arbitrary.
-/

namespace Letmein

/-- `/repo/letmeind/src/main.rs:160-190` the client's session in the server. -/
inductive SrvSide where
  /-- not accepted yet -/
  | waiting
  /-- session number `sid` with the program that remains -/
  | running (sid : Nat) (p : Prog Unit)
  /-- the connection has been closed -/
  | ended (x : R Unit)

/-- `/repo/letmein-proto/src/socket.rs:239-317` `/repo/letmein/src/client.rs:55-110` both sides, their dispatchers, the datagrams in transit and the firewall requests made. -/
structure UdpJoint where
  client : Prog Unit
  csock : UdpSrv
  server : SrvSide
  ssock : UdpSrv
  c2s : List Bytes
  s2c : List Bytes
  reqs : List FwMessage

/-- `/repo/letmein-proto/src/lib.rs:403-413` `Message::recv` after the datagram. -/
def afterDatagram (k : RecvOut → Prog Unit) (b : Bytes) : Prog Unit :=
  match Message.deserialize b with
  | .ok m => k (.msg m)
  | .err => k .fail
  | .panic => .ret .panic

/-- `/repo/letmein-proto/src/socket.rs:275-299,461-464` the receiving program after one round of the loop. -/
def afterRound (k : RecvOut → Prog Unit) : UdpOut → Prog Unit
  | .got b => afterDatagram k b.val
  | .failed => k .fail
  | .panic => .ret .panic
  | .none => .act .recv k
  | .accepted _ => .act .recv k

/-- `/repo/letmein-proto/src/socket.rs:80-100` what the operation reads from the socket. -/
def UdpOp.reads : UdpOp → Option SockIn
  | .accept _ i => some i
  | .recv _ _ i => some i
  | .close _ => none
  | .reorder _ => none

/-- `/repo/letmein-proto/src/socket.rs:80-100` the kernel hands out a datagram of `src` only if there is one. -/
inductive Taken (src : SocketAddr) (i : Option SockIn) : List Bytes → List Bytes → Prop where
  | other {a} (h : ∀ data, i ≠ some (.dgram src data)) : Taken src i a a
  | one {a b data} (h : i = some (.dgram src data)) : Taken src i (a ++ data :: b) (a ++ b)

/-- Operations of the dispatcher not done by the client's session. A task of another session only reads while that session runs
(`/repo/letmein-proto/src/socket.rs:425-430`). -/
inductive Foreign (s : UdpSrv) (side : SrvSide) : UdpOp → Prop where
  | accept (w i) : Foreign s side (.accept w i)
  | recv (sid w i) (hown : ∀ p, side ≠ .running sid p) (hopen : ∃ q, s.sessions[sid]? = some { peer := q, closed := false }) :
      Foreign s side (.recv sid w i)
  | close (sid) (hown : ∀ p, side ≠ .running sid p) : Foreign s side (.close sid)
  | reorder (l) : Foreign s side (.reorder l)

/-- `/repo/letmeind/src/main.rs:165-190` an accepted connection gets a session. -/
def afterForeign (me : SocketAddr) (sess : Prog Unit) (n : Nat) (side : SrvSide) : UdpOut → SrvSide
  | .accepted p => if p = me then .running n sess else side
  | _ => side

/-- What kind of step is taken. -/
inductive ULabel where
  /-- no dispatcher involved -/
  | plain
  /-- a receive round of the client -/
  | client (op : UdpOp)
  /-- a receive round of the client's session in the server -/
  | session (op : UdpOp)
  /-- anything else the server's dispatcher does -/
  | other (op : UdpOp)

/-- One step. `me`, `you`: address of the client and of the server; `sess`: what the server runs for the client.
Plain steps as in `JStep`; sending `/repo/letmein-proto/src/socket.rs:304-317,419-422`, receiving `:275-299`, closing
`/repo/letmeind/src/main.rs:180`. -/
inductive UStep (me you : SocketAddr) (sess : Prog Unit) : UdpJoint → ULabel → UdpJoint → Prop where
  | cConnect {k cs s ss a b r} : UStep me you sess ⟨.act .connect k, cs, s, ss, a, b, r⟩ .plain ⟨k true, cs, s, ss, a, b, r⟩
  | cRand {k cs s ss a b r} (salt : Arr 8) : secureRandom 8 (some salt) = .ok salt →
      UStep me you sess ⟨.act .rand8 k, cs, s, ss, a, b, r⟩ .plain ⟨k (some salt), cs, s, ss, a, b, r⟩
  | cSend {m k cs s ss a b r buf} : m.serialize = .ok buf →
      UStep me you sess ⟨.act (.send m) k, cs, s, ss, a, b, r⟩ .plain ⟨k true, cs, s, ss, a ++ [buf], b, r⟩
  | cRecv {k cs s ss a b r w i b'} : Taken you (some i) b b' →
      UStep me you sess ⟨.act .recv k, cs, s, ss, a, b, r⟩ (.client (.recv 0 w i))
        ⟨afterRound k (udpStep cs (.recv 0 w i)).1, (udpStep cs (.recv 0 w i)).2, s, ss, a, b', r⟩
  | sRand8 {c cs sid k ss a b r} (salt : Arr 8) : secureRandom 8 (some salt) = .ok salt →
      UStep me you sess ⟨c, cs, .running sid (.act .rand8 k), ss, a, b, r⟩ .plain ⟨c, cs, .running sid (k (some salt)), ss, a, b, r⟩
  | sRand32 {c cs sid k ss a b r} (n : Arr 32) : secureRandom 32 (some n) = .ok n →
      UStep me you sess ⟨c, cs, .running sid (.act .rand32 k), ss, a, b, r⟩ .plain ⟨c, cs, .running sid (k (some n)), ss, a, b, r⟩
  | sSend {c cs sid m k ss a b r buf} : m.serialize = .ok buf →
      UStep me you sess ⟨c, cs, .running sid (.act (.send m) k), ss, a, b, r⟩ .plain ⟨c, cs, .running sid (k true), ss, a, b ++ [buf], r⟩
  | sFwConnect {c cs sid k ss a b r} :
      UStep me you sess ⟨c, cs, .running sid (.act .fwConnect k), ss, a, b, r⟩ .plain ⟨c, cs, .running sid (k true), ss, a, b, r⟩
  | sFwSend {c cs sid m k ss a b r} :
      UStep me you sess ⟨c, cs, .running sid (.act (.fwSend m) k), ss, a, b, r⟩ .plain ⟨c, cs, .running sid (k true), ss, a, b, r ++ [m]⟩
  | sFwRecv {c cs sid k ss a b r} (ack : FwMessage) : ack.operation = .Ack →
      UStep me you sess ⟨c, cs, .running sid (.act .fwRecv k), ss, a, b, r⟩ .plain ⟨c, cs, .running sid (k (.msg ack)), ss, a, b, r⟩
  | sRecv {c cs sid k ss a b r w i a'} : Taken me (some i) a a' →
      UStep me you sess ⟨c, cs, .running sid (.act .recv k), ss, a, b, r⟩ (.session (.recv sid w i))
        ⟨c, cs, .running sid (afterRound k (udpStep ss (.recv sid w i)).1), (udpStep ss (.recv sid w i)).2, a', b, r⟩
  | sClose {c cs sid x ss a b r} :
      UStep me you sess ⟨c, cs, .running sid (.ret x), ss, a, b, r⟩ (.session (.close sid)) ⟨c, cs, .ended x, (udpStep ss (.close sid)).2, a, b, r⟩
  | other {c cs s ss a b r op a'} : Foreign ss s op → Taken me op.reads a a' →
      UStep me you sess ⟨c, cs, s, ss, a, b, r⟩ (.other op)
        ⟨c, cs, afterForeign me sess ss.sessions.length s (udpStep ss op).1, (udpStep ss op).2, a', b, r⟩

/-- `/repo/letmein/src/client.rs:55-72` the client's socket: a dispatcher for one connection, and the server as its peer. -/
def UdpSrv.client (you : SocketAddr) : UdpSrv :=
  { disp := UdpDisp.new 1, sessions := [{ peer := you, closed := false }], crashed := false }

/-- The client at its start; the server has been running and is in state `ss`. -/
def UdpJoint.init (mac : MacFn) (you : SocketAddr) (ss : UdpSrv) (u : UserId) (r : ResourceId) (key : Key) : UdpJoint :=
  { client := knockSequence mac u r key, csock := UdpSrv.client you, server := .waiting, ssock := ss, c2s := [], s2c := [], reqs := [] }

end Letmein
