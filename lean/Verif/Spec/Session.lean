import Verif.Model.Prog
import Verif.Model.ConfTypes
import Verif.Spec.Wire

/-!
# Specification vocabulary for sessions

Predicates on traces of observable actions, independent of the session code.
-/

namespace Letmein.Spec

open Letmein Prog

/-- The message received in an event. -/
def recvd : Ev → Option Message
  | ⟨.recv, .msg m⟩ => some m
  | _ => none

/-- The message handed to the network in an event (whether or not the send reports success). -/
def sentMsg : Ev → Option Message
  | ⟨.send m, _⟩ => some m
  | _ => none

/-- The message handed to letmeinfwd in an event. -/
def fwReq : Ev → Option FwMessage
  | ⟨.fwSend m, _⟩ => some m
  | _ => none

/-- Does the event contact letmeinfwd? -/
def isFw : Ev → Bool
  | ⟨.fwConnect, _⟩ => true
  | ⟨.fwSend _, _⟩ => true
  | ⟨.fwRecv, _⟩ => true
  | _ => false

/-- The operating system's random generator failed or returned one byte value repeated (probability `255 * 2^-64` or less
for an honest generator). -/
def BadRandom {n : Nat} (raw : Option (Arr n)) : Prop :=
  raw = none ∨ ∃ b x, raw = some b ∧ ∀ y ∈ b.val, y = x

/-- All messages received, in order. -/
def received (tr : List Ev) : List Message := tr.filterMap recvd
/-- All messages sent, in order. -/
def sent (tr : List Ev) : List Message := tr.filterMap sentMsg
/-- All requests to letmeinfwd, in order. -/
def fwRequests (tr : List Ev) : List FwMessage := tr.filterMap fwReq

/-- A Knock of a configured user, with a valid MAC under that user's key (PROTOCOL.md). -/
structure ValidKnock (mac : MacFn) (conf : Config) (knock : Message) (key : Key) : Prop where
  op : knock.operation = .Knock
  known : conf.key knock.user = some key
  tag : knock.auth = mac key (authText 0 knock.user.raw.toNat knock.resource.raw.toNat knock.salt.val
    (List.replicate 32 0))

/-- The configuration grants the resource to the user. -/
structure Granted (conf : Config) (u : UserId) (r : ResourceId) (res : Resource) : Prop where
  configured : conf.resource r = some res
  allowed : res.users = [] ∨ u ∈ res.users
  notControl : res.port ≠ conf.port.port

/-- A Response with a valid MAC under `key` for the challenge bytes `c`. -/
structure ValidResponse (mac : MacFn) (key : Key) (c : Auth) (resp : Message) : Prop where
  op : resp.operation = .Response
  tag : resp.auth = mac key (authText 2 resp.user.raw.toNat resp.resource.raw.toNat resp.salt.val c.val)

/-- The complete authentication took place in `pre`: exactly a Knock and a Response were received and exactly
a Challenge was sent, in the right order, and everything checks out. -/
structure FullAuth (mac : MacFn) (conf : Config) (pre : List Ev) (knock ch resp : Message) (nonce : Auth) (key : Key)
    (res : Resource) : Prop where
  recvOnly : received pre = [knock, resp]
  sentOnly : sent pre = [ch]
  order : [⟨.recv, .msg knock⟩, ⟨.rand32, some nonce⟩, ⟨.send ch, true⟩, ⟨.recv, .msg resp⟩].Sublist pre
  knockOk : ValidKnock mac conf knock key
  granted : Granted conf knock.user knock.resource res
  chOp : ch.operation = .Challenge
  chNonce : ch.auth = nonce
  respOk : ValidResponse mac key nonce resp
  sameUser : resp.user = knock.user
  sameResource : resp.resource = knock.resource

/-- Does a request of this type open TCP? -/
def opensTcp : PortType → Bool
  | .Tcp => true | .TcpUdp => true | .Udp => false
/-- Does a request of this type open UDP? -/
def opensUdp : PortType → Bool
  | .Udp => true | .TcpUdp => true | .Tcp => false

/-- The peer has been silent or gone, or its bytes were undecodable: the last event is a failed receive. -/
def EndsWithoutMessage (tr : List Ev) : Prop :=
  tr.getLast? = some ⟨.recv, .fail⟩ ∨ tr.getLast? = some ⟨.recv, .disconnected⟩

/-- The last event is a failed transmission of a regular (not Go-Away) message. -/
def EndsWithFailedSend (tr : List Ev) : Prop :=
  ∃ m : Message, m.operation ≠ .GoAway ∧ tr.getLast? = some ⟨.send m, false⟩

/-- The last event hands a Go-Away to the network. -/
def EndsWithGoAway (tr : List Ev) : Prop :=
  ∃ (m : Message) (b : Bool), m.operation = .GoAway ∧ tr.getLast? = some ⟨.send m, b⟩

/-- Some Knock with valid MAC has been received first. -/
def BasicAuth (mac : MacFn) (conf : Config) (tr : List Ev) : Prop :=
  ∃ knock key, (received tr).head? = some knock ∧ ValidKnock mac conf knock key

/-- Knock and Response have been received and are valid. -/
def CompleteAuth (mac : MacFn) (conf : Config) (tr : List Ev) : Prop :=
  ∃ knock resp key nonce, received tr = [knock, resp] ∧ ValidKnock mac conf knock key ∧
    ⟨.rand32, some nonce⟩ ∈ tr ∧ ValidResponse mac key nonce resp ∧
    resp.user = knock.user ∧ resp.resource = knock.resource

/-- May the peer be told about an error? -/
def MayReport (mac : MacFn) (conf : Config) (tr : List Ev) : Prop :=
  match conf.controlErrorPolicy with
  | .Always => True
  | .BasicAuth => BasicAuth mac conf tr
  | .FullAuth => CompleteAuth mac conf tr

end Letmein.Spec
