import Verif.Model.Prog
import Verif.Model.ConfTypes

/-!
# The server session

Models `/repo/letmeind/src/protocol.rs` and `/repo/letmeind/src/firewall_client.rs`.
The asynchronous waits are the actions of `Prog`; printing and error texts are not modelled.
-/

namespace Letmein

/-- `/repo/letmeind/src/protocol.rs:22-31` `AuthState`. -/
inductive AuthState where
  | NotAuth | BasicAuth | ChallengeResponseAuth
  deriving DecidableEq, Repr

/-- `/repo/letmeind/src/protocol.rs:34-41` the mutable fields of `Protocol`. -/
structure PState where
  userId : Option UserId
  resourceId : Option ResourceId
  authState : AuthState
  deriving DecidableEq

/-- `/repo/letmeind/src/protocol.rs:86-90` `send_msg`. -/
def sendMsg (m : Message) : Prog Unit :=
  .act (.send m) fun ok => .ret (if ok then .ok () else .err)

/-- `/repo/letmeind/src/protocol.rs:94-108` is an error message allowed now? -/
def goAwayAllowed (policy : ErrorPolicy) (st : AuthState) : Bool :=
  match policy with
  | .Always => true
  | .BasicAuth => !(st != .BasicAuth && st != .ChallengeResponseAuth)
  | .FullAuth => !(st != .ChallengeResponseAuth)

/-- `/repo/letmeind/src/protocol.rs:92-117` `send_go_away`. -/
def sendGoAway (conf : Config) (st : PState) : Prog Unit :=
  if goAwayAllowed conf.controlErrorPolicy st.authState then do
    let m ← newMessage .GoAway (st.userId.getD ⟨0xFFFFFFFF⟩) (st.resourceId.getD ⟨0xFFFFFFFF⟩)
    sendMsg m
  else .ret (.ok ())

/-- `let _ = self.send_go_away().await; return Err(..)`, e.g. `/repo/letmeind/src/protocol.rs:135-136`. -/
def reject {α : Type} (conf : Config) (st : PState) : Prog α := do
  (sendGoAway conf st).ignore
  .ret .err

/-- `/repo/letmeind/src/protocol.rs:55-84` `recv_msg`. -/
def recvMsg (conf : Config) (st : PState) (expect : Operation) : Prog Message :=
  .act .recv fun
    | .fail => .ret .err
    | .disconnected => .ret .err
    | .msg m =>
      if m.operation ≠ expect then reject conf st
      else if (match st.userId with | some u => decide (m.user ≠ u) | none => false) then reject conf st
      else if (match st.resourceId with | some r => decide (m.resource ≠ r) | none => false) then reject conf st
      else .ret (.ok m)

/-- `/repo/letmeind/src/firewall_client.rs:22-28` `FirewallClient::new`. -/
def fwConnect : Prog Unit := .act .fwConnect fun ok => .ret (if ok then .ok () else .err)

/-- `/repo/letmeind/src/firewall_client.rs:31-56` `open_port`. -/
def fwOpenPort (addr : IpAddr) (portType : PortType) (port : UInt16) : Prog Unit :=
  .act (.fwSend (FwMessage.newOpen addr portType port)) fun ok =>
    if ok then
      .act .fwRecv fun
        | .fail => .ret .err
        | .disconnected => .ret .err
        | .msg reply =>
          match reply.operation with
          | .Ack => .ret (.ok ())
          | .Nack => .ret .err
          | .Open => .ret .err
    else .ret .err

/-- `/repo/letmeind/src/protocol.rs:204-209` the port type of a resource. -/
def Resource.portType (r : Resource) : R PortType :=
  match r.tcp, r.udp with
  | true, false => .ok .Tcp
  | false, true => .ok .Udp
  | true, true => .ok .TcpUdp
  | false, false => .panic

/-- `/repo/letmeind/src/protocol.rs:195-236` after the response has been authenticated. -/
def sessionOpen (conf : Config) (peer : IpAddr) (userId : UserId) (resourceId : ResourceId) (resource : Resource)
    (st : PState) : Prog Unit := do
  let portType ← Prog.ret resource.portType
  Prog.orElse fwConnect (reject conf st)
  Prog.ret (rassert (st.authState = .ChallengeResponseAuth))
  Prog.orElse (fwOpenPort peer portType resource.port) (reject conf st)
  let comein ← newMessage .ComeIn userId resourceId
  sendMsg comein

/-- `/repo/letmeind/src/protocol.rs:180-193` challenge and response. -/
def sessionChallenge (mac : MacFn) (conf : Config) (peer : IpAddr) (userId : UserId) (resourceId : ResourceId)
    (key : Key) (resource : Resource) (st : PState) : Prog Unit := do
  let challenge ← newMessage .Challenge userId resourceId
  let challenge ← generateChallenge challenge
  sendMsg challenge
  let response ← recvMsg conf st .Response
  let ok ← Prog.ret (response.checkAuthOk mac key challenge)
  if !ok then reject conf st
  else sessionOpen conf peer userId resourceId resource { st with authState := .ChallengeResponseAuth }

/-- `/repo/letmeind/src/protocol.rs:119-237` `Protocol::run` for a connection from `peer`. -/
def session (mac : MacFn) (conf : Config) (peer : IpAddr) : Prog Unit := do
  let knock ← recvMsg conf { userId := none, resourceId := none, authState := .NotAuth } .Knock
  let userId := knock.user
  let resourceId := knock.resource
  let st : PState := { userId := some userId, resourceId := some resourceId, authState := .NotAuth }
  match conf.key userId with
  | none => reject conf st
  | some key =>
    let ok ← Prog.ret (knock.checkAuthOkNoChallenge mac key)
    if !ok then reject conf st
    else
      let st := { st with authState := .BasicAuth }
      match conf.resource resourceId with
      | none => reject conf st
      | some resource =>
        if !resource.containsUser userId then reject conf st
        else if resource.port = conf.port.port then reject conf st
        else sessionChallenge mac conf peer userId resourceId key resource st

end Letmein
