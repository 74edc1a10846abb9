import Verif.Model.Prog
import Verif.Model.ConfTypes

/-!
# The client's knock sequence

Models `/repo/letmein/src/client.rs` and `KnockSeq` of `/repo/letmein/src/command/knock.rs:40-127`.
Name resolution and opening the socket are one action here (`connect`); see `Verif.Model.Knock` for them.
-/

namespace Letmein

/-- `/repo/letmein/src/client.rs:31-74` `Client::new`: resolve the name and open the control connection. -/
def clientConnect : Prog Unit := .act .connect fun ok => .ret (if ok then .ok () else .err)

/-- `/repo/letmein/src/client.rs:77-103` `recv_msg` and `recv_specific_msg`. -/
def recvSpecificMsg (expect : Operation) : Prog Message :=
  .act .recv fun
    | .fail => .ret .err
    | .disconnected => .ret .err
    | .msg reply =>
      if reply.operation = .GoAway then .ret .err
      else if reply.operation ≠ expect then .ret .err
      else .ret (.ok reply)

/-- `/repo/letmein/src/client.rs:106-110` `send_msg`. -/
def clientSendMsg (m : Message) : Prog Unit :=
  .act (.send m) fun ok => .ret (if ok then .ok () else .err)

/-- `/repo/letmein/src/command/knock.rs:54-74` `check_reply`: only warns. -/
def checkReply (_user : UserId) (_resource : ResourceId) (_msg : Message) : R Unit := .ok ()

/-- `/repo/letmein/src/command/knock.rs:77-127` `knock_sequence`. -/
def knockSequence (mac : MacFn) (user : UserId) (resource : ResourceId) (key : Key) : Prog Unit := do
  clientConnect
  let knock ← newMessage .Knock user resource
  let knock ← Prog.ret (knock.generateAuthNoChallenge mac key)
  clientSendMsg knock
  let challenge ← recvSpecificMsg .Challenge
  Prog.ret (checkReply user resource challenge)
  let response ← newMessage .Response user resource
  let response ← Prog.ret (response.generateAuth mac key challenge)
  clientSendMsg response
  let comein ← recvSpecificMsg .ComeIn
  Prog.ret (checkReply user resource comein)

end Letmein
