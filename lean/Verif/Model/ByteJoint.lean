import Verif.Model.Joint
import Verif.Model.Stream

/-!
# Client and session over a byte stream

As `Verif.Model.Joint`, but the control connection carries bytes: a message is sent and received in pieces, as the kernel likes, and the
two sides run in between (a receiver may read the beginning of a message while its end is still being written).
Rounds that end with `WouldBlock` are no steps. As in `Verif.Model.Joint` nothing fails; that the random generator, letmeinfwd and the
connection work is the situation of C14.
-/

namespace Letmein

/-- The loop variables of a send or receive in progress. -/
inductive Io where
  | idle
  /-- `/repo/letmein-proto/src/socket.rs:396` sending `buf`, `count` bytes have been written. -/
  | tx (buf : Bytes) (count : Nat)
  /-- `/repo/letmein-proto/src/socket.rs:434-435` receiving into `buf`, `count` bytes have been read. -/
  | rx (buf : Bytes) (count : Nat)
  deriving DecidableEq

/-- `/repo/letmein-proto/src/socket.rs:403-409` one successful `try_write` of `n` bytes at most: the new `count` and the bytes written. -/
def txRound (buf : Bytes) (count n : Nat) : R (Nat × Bytes) :=
  match sliceFrom buf count with
  | .ok rest =>
    let taken := rest.take n
    let count' := count + taken.length
    if ¬ count' ≤ buf.length then .panic else .ok (count', taken)
  | _ => .panic

/-- `/repo/letmein-proto/src/socket.rs:442-452` one successful `try_read` of `n + 1` bytes at most: the new buffer and `count`, and the
bytes left in the stream. -/
def rxRound (buf : Bytes) (count : Nat) (data : Bytes) (n : Nat) : R (Bytes × Nat × Bytes) :=
  let got := kernelRead data (buf.length - count) n
  match writeAt buf count got with
  | .ok buf' =>
    let count' := count + got.length
    if ¬ count' ≤ MSG_SIZE then .panic else .ok (buf', count', data.drop got.length)
  | _ => .panic

/-- A program and what it is doing. -/
structure Side where
  prog : Prog Unit
  io : Io

/-- One step of sending or receiving: the side, the stream it reads from and the stream it writes to. `closed`: the other side has ended and closed the
connection. `/repo/letmein-proto/src/socket.rs:388-467`, `/repo/letmein-proto/src/lib.rs:393-413`. -/
inductive IoStep (closed : Bool) : Side → Bytes → Bytes → Side → Bytes → Bytes → Prop where
  | sendStart {m k buf i o} : m.serialize = .ok buf →
      IoStep closed ⟨.act (.send m) k, .idle⟩ i o ⟨.act (.send m) k, .tx buf 0⟩ i o
  | write {m k buf count i o n count' taken} : txRound buf count (n + 1) = .ok (count', taken) → count' ≠ buf.length →
      IoStep closed ⟨.act (.send m) k, .tx buf count⟩ i o ⟨.act (.send m) k, .tx buf count'⟩ i (o ++ taken)
  | writeEnd {m k buf count i o n count' taken} : txRound buf count (n + 1) = .ok (count', taken) → count' = buf.length →
      IoStep closed ⟨.act (.send m) k, .tx buf count⟩ i o ⟨k true, .idle⟩ i (o ++ taken)
  | writePanic {m k buf count i o n} : txRound buf count (n + 1) = .panic →
      IoStep closed ⟨.act (.send m) k, .tx buf count⟩ i o ⟨.ret .panic, .idle⟩ i o
  | recvStart {k i o} :
      IoStep closed ⟨.act .recv k, .idle⟩ i o ⟨.act .recv k, .rx (Arr.replicate MSG_SIZE 0).val 0⟩ i o
  | read {k buf count i o n buf' count' i'} : i ≠ [] → rxRound buf count i n = .ok (buf', count', i') → count' ≠ MSG_SIZE →
      IoStep closed ⟨.act .recv k, .rx buf count⟩ i o ⟨.act .recv k, .rx buf' count'⟩ i' o
  | readEnd {k buf count i o n buf' count' i' m} : i ≠ [] → rxRound buf count i n = .ok (buf', count', i') → count' = MSG_SIZE →
      Message.deserialize buf' = .ok m → IoStep closed ⟨.act .recv k, .rx buf count⟩ i o ⟨k (.msg m), .idle⟩ i' o
  | readBad {k buf count i o n buf' count' i'} : i ≠ [] → rxRound buf count i n = .ok (buf', count', i') → count' = MSG_SIZE →
      Message.deserialize buf' = .err → IoStep closed ⟨.act .recv k, .rx buf count⟩ i o ⟨k .fail, .idle⟩ i' o
  | readPanic {k buf count i o n} : i ≠ [] → (rxRound buf count i n = .panic ∨
        ∃ buf' count' i', rxRound buf count i n = .ok (buf', count', i') ∧ count' = MSG_SIZE ∧ Message.deserialize buf' = .panic) →
      IoStep closed ⟨.act .recv k, .rx buf count⟩ i o ⟨.ret .panic, .idle⟩ i o
  /-- end of the stream -/
  | readEof {k buf count o} : closed = true →
      IoStep closed ⟨.act .recv k, .rx buf count⟩ [] o ⟨k .disconnected, .idle⟩ [] o

/-- Both sides, the bytes in transit and the firewall requests made. -/
structure ByteJoint where
  client : Side
  server : Side
  c2s : Bytes
  s2c : Bytes
  reqs : List FwMessage

/-- The side has ended (the connection is closed when its owner is dropped: `/repo/letmeind/src/main.rs:165-179`,
`/repo/letmein/src/command/knock.rs:77-127`). -/
def Side.ended (s : Side) : Bool := match s.prog with | .ret _ => true | .act .. => false

/-- One step of either side. Steps other than those of `IoStep` as in `JStep`. -/
inductive BStep : ByteJoint → ByteJoint → Prop where
  | cConnect {k s a b r} : BStep ⟨⟨.act .connect k, .idle⟩, s, a, b, r⟩ ⟨⟨k true, .idle⟩, s, a, b, r⟩
  | cRand {k s a b r} (salt : Arr 8) : secureRandom 8 (some salt) = .ok salt →
      BStep ⟨⟨.act .rand8 k, .idle⟩, s, a, b, r⟩ ⟨⟨k (some salt), .idle⟩, s, a, b, r⟩
  | cIo {c s a b r c' a' b'} : IoStep s.ended c b a c' b' a' → BStep ⟨c, s, a, b, r⟩ ⟨c', s, a', b', r⟩
  | sRand8 {c k a b r} (salt : Arr 8) : secureRandom 8 (some salt) = .ok salt →
      BStep ⟨c, ⟨.act .rand8 k, .idle⟩, a, b, r⟩ ⟨c, ⟨k (some salt), .idle⟩, a, b, r⟩
  | sRand32 {c k a b r} (n : Arr 32) : secureRandom 32 (some n) = .ok n →
      BStep ⟨c, ⟨.act .rand32 k, .idle⟩, a, b, r⟩ ⟨c, ⟨k (some n), .idle⟩, a, b, r⟩
  | sFwConnect {c k a b r} : BStep ⟨c, ⟨.act .fwConnect k, .idle⟩, a, b, r⟩ ⟨c, ⟨k true, .idle⟩, a, b, r⟩
  | sFwSend {c m k a b r} : BStep ⟨c, ⟨.act (.fwSend m) k, .idle⟩, a, b, r⟩ ⟨c, ⟨k true, .idle⟩, a, b, r ++ [m]⟩
  | sFwRecv {c k a b r} (ack : FwMessage) : ack.operation = .Ack →
      BStep ⟨c, ⟨.act .fwRecv k, .idle⟩, a, b, r⟩ ⟨c, ⟨k (.msg ack), .idle⟩, a, b, r⟩
  | sIo {c s a b r s' a' b'} : IoStep c.ended s a b s' a' b' → BStep ⟨c, s, a, b, r⟩ ⟨c, s', a', b', r⟩

/-- `n` steps. -/
inductive BSteps : Nat → ByteJoint → ByteJoint → Prop where
  | refl (B) : BSteps 0 B B
  | step {n B B' B''} : BSteps n B B' → BStep B' B'' → BSteps (n + 1) B B''

/-- Both sides at their start. -/
def ByteJoint.init (mac : MacFn) (conf : Config) (peer : IpAddr) (u : UserId) (r : ResourceId) (key : Key) : ByteJoint :=
  { client := ⟨knockSequence mac u r key, .idle⟩, server := ⟨session mac conf peer, .idle⟩, c2s := [], s2c := [], reqs := [] }

end Letmein
