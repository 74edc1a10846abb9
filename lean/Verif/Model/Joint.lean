import Verif.Model.Session
import Verif.Model.Client

/-!
# One client and one server session over a reliable connection

The client runs `knockSequence`, the server `session`; each direction is a FIFO of messages that loses nothing, sends and
receives do not fail, letmeinfwd acknowledges, the random generators deliver usable values. Scheduling and
random values are arbitrary.
-/

namespace Letmein

/-- State of the two programs, the two message queues and the firewall requests made. -/
structure Joint where
  client : Prog Unit
  server : Prog Unit
  c2s : List Message
  s2c : List Message
  reqs : List FwMessage

/-- One step of either side. Order of delivery as for `/repo/letmein-proto/src/socket.rs` (TCP). -/
inductive JStep : Joint → Joint → Prop where
  | cConnect {k s a b r} : JStep ⟨.act .connect k, s, a, b, r⟩ ⟨k true, s, a, b, r⟩
  | cRand {k s a b r} (salt : Arr 8) : secureRandom 8 (some salt) = .ok salt →
      JStep ⟨.act .rand8 k, s, a, b, r⟩ ⟨k (some salt), s, a, b, r⟩
  | cSend {m k s a b r} : JStep ⟨.act (.send m) k, s, a, b, r⟩ ⟨k true, s, a ++ [m], b, r⟩
  | cRecv {m k s a b r} : JStep ⟨.act .recv k, s, a, m :: b, r⟩ ⟨k (.msg m), s, a, b, r⟩
  | sRand8 {c k a b r} (salt : Arr 8) : secureRandom 8 (some salt) = .ok salt →
      JStep ⟨c, .act .rand8 k, a, b, r⟩ ⟨c, k (some salt), a, b, r⟩
  | sRand32 {c k a b r} (n : Arr 32) : secureRandom 32 (some n) = .ok n →
      JStep ⟨c, .act .rand32 k, a, b, r⟩ ⟨c, k (some n), a, b, r⟩
  | sSend {c m k a b r} : JStep ⟨c, .act (.send m) k, a, b, r⟩ ⟨c, k true, a, b ++ [m], r⟩
  | sRecv {c m k a b r} : JStep ⟨c, .act .recv k, m :: a, b, r⟩ ⟨c, k (.msg m), a, b, r⟩
  | sFwConnect {c k a b r} : JStep ⟨c, .act .fwConnect k, a, b, r⟩ ⟨c, k true, a, b, r⟩
  | sFwSend {c m k a b r} : JStep ⟨c, .act (.fwSend m) k, a, b, r⟩ ⟨c, k true, a, b, r ++ [m]⟩
  | sFwRecv {c k a b r} (ack : FwMessage) : ack.operation = .Ack →
      JStep ⟨c, .act .fwRecv k, a, b, r⟩ ⟨c, k (.msg ack), a, b, r⟩

/-- `n` steps. -/
inductive JSteps : Nat → Joint → Joint → Prop where
  | refl (J) : JSteps 0 J J
  | step {n J J' J''} : JSteps n J J' → JStep J' J'' → JSteps (n + 1) J J''

/-- Both sides at their start. -/
def Joint.init (mac : MacFn) (conf : Config) (peer : IpAddr) (u : UserId) (r : ResourceId) (key : Key) : Joint :=
  { client := knockSequence mac u r key, server := session mac conf peer, c2s := [], s2c := [], reqs := [] }

end Letmein
