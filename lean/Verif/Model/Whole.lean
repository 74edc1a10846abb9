import Verif.Model.Joint
import Verif.Model.FwServer

/-!
# A knock with all three programs

As `Joint`, but letmeinfwd is the model of `FwServer` instead of a party that acknowledges everything. letmeinfwd serves others, runs its
maintenance and is subject to other programs at the same time; `nft` works when it handles the request of this session.
-/

namespace Letmein

/-- The two programs, the connection between them, the Unix socket connection of the session to letmeinfwd, and letmeinfwd. -/
structure Whole where
  client : Prog Unit
  server : Prog Unit
  c2s : List Message
  s2c : List Message
  toFw : List FwMessage
  fromFw : List FwMessage
  fwd : FwdState

/-- Kinds of steps. -/
inductive WEv where
  /-- of client or session -/
  | exchange
  /-- letmeinfwd handles the session's message -/
  | serve (m : FwMessage) (now : Nat)
  /-- anything else happens to letmeinfwd -/
  | other (op : FwdOp)

/-- One step. Order of delivery as for `/repo/letmein-proto/src/socket.rs` (TCP) and `/repo/letmein-fwproto/src/lib.rs:278-331`; the session's
message is handled as in `/repo/letmeinfwd/src/server.rs:76-144`. -/
inductive WStep (fconf : Config) : Whole → WEv → Whole → Prop where
  | cConnect {k s a b x y f} : WStep fconf ⟨.act .connect k, s, a, b, x, y, f⟩ .exchange ⟨k true, s, a, b, x, y, f⟩
  | cRand {k s a b x y f} (salt : Arr 8) : secureRandom 8 (some salt) = .ok salt →
      WStep fconf ⟨.act .rand8 k, s, a, b, x, y, f⟩ .exchange ⟨k (some salt), s, a, b, x, y, f⟩
  | cSend {m k s a b x y f} : WStep fconf ⟨.act (.send m) k, s, a, b, x, y, f⟩ .exchange ⟨k true, s, a ++ [m], b, x, y, f⟩
  | cRecv {m k s a b x y f} : WStep fconf ⟨.act .recv k, s, a, m :: b, x, y, f⟩ .exchange ⟨k (.msg m), s, a, b, x, y, f⟩
  | sRand8 {c k a b x y f} (salt : Arr 8) : secureRandom 8 (some salt) = .ok salt →
      WStep fconf ⟨c, .act .rand8 k, a, b, x, y, f⟩ .exchange ⟨c, k (some salt), a, b, x, y, f⟩
  | sRand32 {c k a b x y f} (n : Arr 32) : secureRandom 32 (some n) = .ok n →
      WStep fconf ⟨c, .act .rand32 k, a, b, x, y, f⟩ .exchange ⟨c, k (some n), a, b, x, y, f⟩
  | sSend {c m k a b x y f} : WStep fconf ⟨c, .act (.send m) k, a, b, x, y, f⟩ .exchange ⟨c, k true, a, b ++ [m], x, y, f⟩
  | sRecv {c m k a b x y f} : WStep fconf ⟨c, .act .recv k, m :: a, b, x, y, f⟩ .exchange ⟨c, k (.msg m), a, b, x, y, f⟩
  | sFwConnect {c k a b x y f} : WStep fconf ⟨c, .act .fwConnect k, a, b, x, y, f⟩ .exchange ⟨c, k true, a, b, x, y, f⟩
  | sFwSend {c m k a b x y f} :
      WStep fconf ⟨c, .act (.fwSend m) k, a, b, x, y, f⟩ .exchange ⟨c, k true, a, b, x ++ [m], y, f⟩
  | sFwRecv {c m k a b x y f} :
      WStep fconf ⟨c, .act .fwRecv k, a, b, x, m :: y, f⟩ .exchange ⟨c, k (.msg m), a, b, x, y, f⟩
  | serve {c s a b m x y f} (now : Nat) :
      WStep fconf ⟨c, s, a, b, m :: x, y, f⟩ (.serve m now)
        ⟨c, s, a, b, x, y ++ (fwdStep fconf f (.request (.msg m) now true)).1.toList, (fwdStep fconf f (.request (.msg m) now true)).2⟩
  | other {c s a b x y f} (op : FwdOp) :
      WStep fconf ⟨c, s, a, b, x, y, f⟩ (.other op) ⟨c, s, a, b, x, y, (fwdStep fconf f op).2⟩

/-- Several steps. -/
inductive WSteps (fconf : Config) : Whole → List WEv → Whole → Prop where
  | refl (W) : WSteps fconf W [] W
  | step {W W' W'' evs e} : WSteps fconf W evs W' → WStep fconf W' e W'' → WSteps fconf W (evs ++ [e]) W''

/-- All at the start; letmeinfwd in the state `f`. -/
def Whole.init (mac : MacFn) (conf : Config) (peer : IpAddr) (u : UserId) (r : ResourceId) (key : Key) (f : FwdState) : Whole :=
  { client := knockSequence mac u r key, server := session mac conf peer, c2s := [], s2c := [], toFw := [], fromFw := [], fwd := f }

/-- What happens to letmeinfwd in a step. -/
def WEv.fwdOp : WEv → Option FwdOp
  | .exchange => none
  | .serve m now => some (.request (.msg m) now true)
  | .other op => some op

/-- Does the step belong to the knock? -/
def WEv.own : WEv → Bool
  | .other _ => false
  | _ => true

end Letmein
