import Verif.Model.Network
import Verif.Spec.Session
import Verif.Props.Wire

/-!
# Specification vocabulary for the attacker model
-/

namespace Letmein.Spec

open Letmein Prog

/-- Session `sid` is a client holding `key`. -/
def HoldsKey (who : Nat → Party) (sid : Nat) (key : Key) : Prop :=
  ∃ addr u r, who sid = .client addr u r key

/-- In `G` a client holding `key` put the tag `tag` on the network. -/
def TagSentBy (who : Nat → Party) (G : List GEv) (key : Key) (tag : Auth) : Prop :=
  ∃ sid e m, HoldsKey who sid key ∧ (sid, e) ∈ G ∧ sentMsg e = some m ∧ m.auth = tag

/-- A forgery under `key`: a server session received a Response whose tag is right under `key` for the challenge bytes this
session had drawn, but no holder of the key has ever put this tag on the network. -/
def Forgery (mac : MacFn) (who : Nat → Party) (G : List GEv) (key : Key) : Prop :=
  ∃ pre sid resp post nonce, G = pre ++ (sid, ⟨.recv, .msg resp⟩) :: post ∧ (sid, ⟨.rand32, some nonce⟩) ∈ pre ∧
    ValidResponse mac key nonce resp ∧ ¬ TagSentBy who pre key resp.auth

/-- A text a client holding `key` tagged in `G`: that of a Knock it sent, or that of a Response it sent to a challenge it
received. -/
def ClientText (who : Nat → Party) (G : List GEv) (key : Key) (t : Bytes) : Prop :=
  ∃ sid e m, HoldsKey who sid key ∧ (sid, e) ∈ G ∧ sentMsg e = some m ∧
    ((m.operation = .Knock ∧
        t = authText 0 m.user.raw.toNat m.resource.raw.toNat m.salt.val (List.replicate 32 0)) ∨
     (m.operation = .Response ∧ ∃ ch : Message, (sid, ⟨.recv, .msg ch⟩) ∈ G ∧
        t = authText 2 m.user.raw.toNat m.resource.raw.toNat m.salt.val ch.auth.val))

/-- A text a server session checked in `G`: that of a received Response with the challenge bytes of its session. -/
def CheckedText (G : List GEv) (t : Bytes) : Prop :=
  ∃ sid resp nonce, (sid, ⟨.recv, .msg resp⟩) ∈ G ∧ (sid, ⟨.rand32, some nonce⟩) ∈ G ∧
    t = authText 2 resp.user.raw.toNat resp.resource.raw.toNat resp.salt.val nonce.val

/-- During `G` the MAC collided: a text tagged by a client and a different text checked by the server have the same tag.
(That such texts exist somewhere is certain; this says that the run at hand contains them.) -/
def CollisionInRun (mac : MacFn) (who : Nat → Party) (G : List GEv) (key : Key) : Prop :=
  ∃ t₁ t₂, ClientText who G key t₁ ∧ CheckedText G t₂ ∧ t₁ ≠ t₂ ∧ mac key t₁ = mac key t₂

/-- Client session `cid` holding `key` answers, in event `e` and as user `u` for resource `r`, the challenge `nonce`, which
it has received before. -/
structure Answers (mac : MacFn) (who : Nat → Party) (pre : List GEv) (cid : Nat) (e : Ev) (key : Key) (u : UserId)
    (r : ResourceId) (nonce : Auth) : Prop where
  party : ∃ addr, who cid = .client addr u r key
  heard : ∃ ch : Message, ch.operation = .Challenge ∧ ch.auth = nonce ∧ (cid, ⟨.recv, .msg ch⟩) ∈ pre
  sent : ∃ m b, e = ⟨.send m, b⟩ ∧ m.user = u ∧ m.resource = r ∧ ValidResponse mac key nonce m

end Letmein.Spec
