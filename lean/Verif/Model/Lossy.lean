import Verif.Model.Session
import Verif.Model.Client

/-!
# One client and one server session over UDP

As `Model/Joint.lean`, but the network between them may deliver a datagram late, not at all, in another order and more than
once: a receive takes any datagram that the other side has ever sent, or times out. Datagrams of other peers
and forged ones are not part of this model (they are in the traces of `Model/Prog.lean`, where the answers are arbitrary).
There is one session only: what the dispatcher does with datagrams that come after its end is in `Model/Udp.lean`.
-/

namespace Letmein

/-- `/repo/letmein-proto/src/socket.rs:210-299` The two programs, all datagrams ever sent in either direction, which of them (by number, in the order of taking) each
side has taken, and the requests made to letmeinfwd. -/
structure LossyNet where
  client : Prog Unit
  server : Prog Unit
  c2s : List Message
  s2c : List Message
  /-- numbers of the elements of `s2c` taken by the client -/
  cTaken : List Nat
  /-- numbers of the elements of `c2s` taken by the server -/
  sTaken : List Nat
  reqs : List FwMessage

/-- How an action is answered (as `Act.Resp`, `/repo/letmein-proto/src/lib.rs:392-413`). -/
inductive LossyAns where
  /-- connect and send succeed -/
  | go
  | rand8 (x : Arr 8)
  | rand32 (x : Arr 32)
  /-- receive the datagram of this number -/
  | take (i : Nat)
  /-- nothing comes within the control timeout -/
  | timeout
  /-- letmeinfwd's answer -/
  | fw (m : FwMessage)
  deriving DecidableEq

/-- Which side goes on, and how. -/
inductive LossyEv where
  | client (a : LossyAns)
  | server (a : LossyAns)
  deriving DecidableEq

/-- A step of the client: `/repo/letmein/src/command/knock.rs:77-127` over `/repo/letmein/src/client.rs:77-110`, receiving with
`/repo/letmein-proto/src/socket.rs:274-299` (one datagram, one message). Random values are usable ones. -/
def lossyClient (s : LossyNet) (a : LossyAns) : Option LossyNet :=
  match s.client, a with
  | .act .connect k, .go => some { s with client := k true }
  | .act .rand8 k, .rand8 x => if secureRandom 8 (some x) = .ok x then some { s with client := k (some x) } else none
  | .act (.send m) k, .go => some { s with client := k true, c2s := s.c2s ++ [m] }
  | .act .recv k, .take i =>
    match s.s2c[i]? with
    | some m => some { s with client := k (.msg m), cTaken := s.cTaken ++ [i] }
    | none => none
  | .act .recv k, .timeout => some { s with client := k .fail }
  | _, _ => none

/-- A step of the server's session: `/repo/letmeind/src/protocol.rs:119-237`, receiving with
`/repo/letmein-proto/src/socket.rs:274-299` (the datagrams of the session's peer). letmeinfwd acknowledges. -/
def lossyServer (s : LossyNet) (a : LossyAns) : Option LossyNet :=
  match s.server, a with
  | .act .rand8 k, .rand8 x => if secureRandom 8 (some x) = .ok x then some { s with server := k (some x) } else none
  | .act .rand32 k, .rand32 x => if secureRandom 32 (some x) = .ok x then some { s with server := k (some x) } else none
  | .act (.send m) k, .go => some { s with server := k true, s2c := s.s2c ++ [m] }
  | .act .recv k, .take i =>
    match s.c2s[i]? with
    | some m => some { s with server := k (.msg m), sTaken := s.sTaken ++ [i] }
    | none => none
  | .act .recv k, .timeout => some { s with server := k .fail }
  | .act .fwConnect k, .go => some { s with server := k true }
  | .act (.fwSend m) k, .go => some { s with server := k true, reqs := s.reqs ++ [m] }
  | .act .fwRecv k, .fw m => if m.operation = .Ack then some { s with server := k (.msg m) } else none
  | _, _ => none

/-- One step of either side (`/repo/letmein/src/client.rs:77-110`, `/repo/letmeind/src/protocol.rs:55-90`); order arbitrary, see `lossyClient` and `lossyServer`. -/
def lossyStep (s : LossyNet) : LossyEv → Option LossyNet
  | .client a => lossyClient s a
  | .server a => lossyServer s a

/-- A run; `none` if one of the answers does not fit. Scheduling of the two processes, no code of its own. -/
def lossyRun (s : LossyNet) : List LossyEv → Option LossyNet
  | [] => some s
  | e :: es => (lossyStep s e).bind fun s' => lossyRun s' es

/-- Both sides at their start: `/repo/letmein/src/command/knock.rs:77-127` and `/repo/letmeind/src/protocol.rs:119-237`. -/
def LossyNet.init (mac : MacFn) (conf : Config) (peer : IpAddr) (u : UserId) (r : ResourceId) (key : Key) : LossyNet :=
  { client := knockSequence mac u r key, server := session mac conf peer, c2s := [], s2c := [], cTaken := [], sTaken := [],
    reqs := [] }

end Letmein
