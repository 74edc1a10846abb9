import Verif.Spec.Session

/-!
# Message flow and salts as PROTOCOL.md describes them
-/

namespace Letmein.Spec

open Letmein Prog

/-- The 8 byte values drawn from the random generator, in order. -/
def draws8 (tr : List Ev) : List Salt := tr.filterMap (fun e => match e with | ⟨.rand8, some s⟩ => some s | _ => none)

/-- The 32 byte values drawn from the random generator, in order. -/
def draws32 (tr : List Ev) : List Auth := tr.filterMap (fun e => match e with | ⟨.rand32, some s⟩ => some s | _ => none)

/-- The salts of the messages sent, in order. -/
def saltsSent (tr : List Ev) : List Salt := (sent tr).map (·.salt)

/-- The challenge tokens sent, in order. -/
def tokensSent (tr : List Ev) : List Auth := ((sent tr).filter (fun m => m.operation = .Challenge)).map (·.auth)

/-- What the server has received so far is what PROTOCOL.md allows: nothing, a Knock, or a Knock and a Response; everything
authentic, for a resource the user may knock open, and with the ids of the Knock. -/
def ServerFlow (mac : MacFn) (conf : Config) (tr : List Ev) : Prop :=
  received tr = [] ∨
  (∃ knock key res, received tr = [knock] ∧ ValidKnock mac conf knock key ∧ Granted conf knock.user knock.resource res) ∨
  (∃ knock resp key res nonce, received tr = [knock, resp] ∧ ValidKnock mac conf knock key ∧
    Granted conf knock.user knock.resource res ∧ nonce ∈ tokensSent tr ∧ ValidResponse mac key nonce resp ∧
    resp.user = knock.user ∧ resp.resource = knock.resource)

/-- A reply with the ids of the Knock. -/
def ForKnock (u : UserId) (r : ResourceId) (m : Message) : Prop := m.user = u ∧ m.resource = r

/-- What the client has received so far is what PROTOCOL.md allows: nothing, a Challenge, or a Challenge and a Come-In, with the
ids of the Knock. `ids = false`: disregarding the ids. -/
def ClientFlow (ids : Bool) (u : UserId) (r : ResourceId) (tr : List Ev) : Prop :=
  received tr = [] ∨
  (∃ ch, received tr = [ch] ∧ ch.operation = .Challenge ∧ (ids = true → ForKnock u r ch)) ∨
  (∃ ch ci, received tr = [ch, ci] ∧ ch.operation = .Challenge ∧ ci.operation = .ComeIn ∧
    (ids = true → ForKnock u r ch ∧ ForKnock u r ci))

/-- The communication stops: nothing follows but possibly one Go-Away (whose salt has to be drawn). -/
def StopsWith (post : List Ev) : Prop :=
  post = [] ∨ (∃ raw, post = [⟨.rand8, raw⟩]) ∨
  (∃ raw m b, m.operation = .GoAway ∧ post = [⟨.rand8, raw⟩, ⟨.send m, b⟩])

end Letmein.Spec
