import Verif.Model.Wire
import Verif.Model.FwWire

/-!
# Interactive programs

The asynchronous protocol code talks to its peer, to the firewall daemon and to the random number generator.
A `Prog` is such code: a tree of actions whose continuation depends on the answer of the environment.
Nothing restricts the answers; a theorem about all traces of a program holds for every (adaptive) environment.
-/

namespace Letmein

/-- Outcome of `timeout(control_timeout, recv_msg())`. -/
inductive RecvOut where
  /-- `Ok(Some(msg))` -/
  | msg (m : Message)
  /-- `Ok(None)` -/
  | disconnected
  /-- receive error, undecodable bytes, or timeout -/
  | fail
  deriving DecidableEq

/-- Outcome of `FirewallMessage::recv`. -/
inductive FwRecvOut where
  | msg (m : FwMessage)
  | disconnected
  | fail
  deriving DecidableEq

/-- Actions of the protocol code. -/
inductive Act where
  /-- Resolve the server and open the control connection (client only). -/
  | connect
  /-- Receive one message from the peer, with timeout. -/
  | recv
  /-- Send one message to the peer, with timeout. -/
  | send (m : Message)
  /-- Ask the operating system for 8 random bytes. -/
  | rand8
  /-- Ask the operating system for 32 random bytes. -/
  | rand32
  /-- Connect to the Unix socket of letmeinfwd. -/
  | fwConnect
  /-- Send one message to letmeinfwd. -/
  | fwSend (m : FwMessage)
  /-- Receive one message from letmeinfwd. -/
  | fwRecv
  deriving DecidableEq

/-- What the environment answers. For sends and connects: success or failure. A failed send may still
have delivered the message. -/
@[reducible] def Act.Resp : Act → Type
  | .connect => Bool
  | .recv => RecvOut
  | .send _ => Bool
  | .rand8 => Option (Arr 8)
  | .rand32 => Option (Arr 32)
  | .fwConnect => Bool
  | .fwSend _ => Bool
  | .fwRecv => FwRecvOut

instance (a : Act) : DecidableEq a.Resp := by
  cases a <;> simp only [Act.Resp] <;> infer_instance

/-- An interactive program with Rust result `R α`. -/
inductive Prog (α : Type) where
  | ret (r : R α)
  | act (a : Act) (k : a.Resp → Prog α)

namespace Prog

/-- Sequencing with `?`: errors and panics end the program. -/
def bind {α β : Type} : Prog α → (α → Prog β) → Prog β
  | .ret (.ok a), f => f a
  | .ret .err, _ => .ret .err
  | .ret .panic, _ => .ret .panic
  | .act a k, f => .act a (fun x => bind (k x) f)

instance : Monad Prog where
  pure a := .ret (.ok a)
  bind := bind

/-- `let _ = p.await;`: errors are dropped, panics are not. -/
def ignore {α : Type} : Prog α → Prog Unit
  | .ret (.ok _) => .ret (.ok ())
  | .ret .err => .ret (.ok ())
  | .ret .panic => .ret .panic
  | .act a k => .act a (fun x => ignore (k x))

/-- Replace an error by another program (`if let Err(e) = p.await { .. }`); panics are not caught. -/
def orElse {α : Type} : Prog α → Prog α → Prog α
  | .ret (.ok a), _ => .ret (.ok a)
  | .ret .err, q => q
  | .ret .panic, _ => .ret .panic
  | .act a k, q => .act a (fun x => orElse (k x) q)

/-- One answered action. -/
abbrev Ev := (a : Act) × a.Resp

/-- `p.Trace tr o`: the program can take part in exactly the actions and answers `tr`;
`o = some r`: it has then ended with `r`; `o = none`: it is stopped there (running, waiting, or killed). -/
def Trace {α : Type} : Prog α → List Ev → Option (R α) → Prop
  | .ret r, tr, o => tr = [] ∧ (o = none ∨ o = some r)
  | .act _ _, [], o => o = none
  | .act a k, e :: tr, o => ∃ x, e = ⟨a, x⟩ ∧ Trace (k x) tr o

end Prog

/-- `/repo/letmein-proto/src/lib.rs:115-133,232-241` `Message::new` with its call of `secure_random`. -/
def newMessage (op : Operation) (user : UserId) (resource : ResourceId) : Prog Message :=
  .act .rand8 fun raw => .ret (do
    let salt ← secureRandom 8 raw
    .ok (Message.new op user resource salt))

/-- `/repo/letmein-proto/src/lib.rs:331-334` `generate_challenge` with its call of `secure_random`. -/
def generateChallenge (m : Message) : Prog Message := do
  Prog.ret (rassert (m.operation = .Challenge))
  .act .rand32 fun raw => .ret (do
    let nonce ← secureRandom 32 raw
    m.generateChallenge nonce)

end Letmein
