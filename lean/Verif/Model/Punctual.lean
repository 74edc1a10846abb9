import Verif.Model.Whole
import Verif.Model.Timing

/-!
# A knock with all three programs and their time limits

As `Whole`, but time passes: each step takes place at a time, the parties note since when they wait, and a wait that has a limit may end without result once the limit has
passed. In nanoseconds.
-/

namespace Letmein

/-- A knock, the present time, since when client and session are at their present action, and when the knock last made a step.
The waits of `/repo/letmein/src/client.rs:77-110` and `/repo/letmeind/src/protocol.rs:55-91`. -/
structure Timed where
  W : Whole
  now : Nat
  cSince : Nat
  sSince : Nat
  last : Nat

/-- What happens: a step of `Whole`, or a time limit strikes. `/repo/letmein/src/client.rs:78-80,107-109` for the client, `/repo/letmeind/src/protocol.rs:56-58,87-89` for the session. -/
inductive TEv where
  | step (e : WEv)
  | clientTimeout
  | sessionTimeout

/-- The answer that an action gets when its time is up. `/repo/letmein/src/client.rs:78-80,107-109`, `/repo/letmeind/src/protocol.rs:56-58,87-89`: receiving and sending end with an error; nothing else
has a limit (`Act.limit`). -/
def Prog.afterTimeout : Prog Unit → Option (Prog Unit)
  | .act .recv k => some (k .fail)
  | .act (.send _) k => some (k false)
  | _ => none

/-- When letmeinfwd does this by its clock: `/repo/letmeinfwd/src/firewall.rs:74,84,88` where it asks for the time. -/
def FwdOp.clock : FwdOp → Option Nat
  | .request _ now _ => some now
  | .maintain now _ => some now
  | _ => none

/-- One step at time `t`; `tc` and `ts` are the control timeouts of client and server. A time limit may strike at any time after it has passed, or never: `tokio::time::timeout` looks for the result
first. A message whose sending has timed out isn't delivered. letmeinfwd takes the time from the same clock. The client's limits: `/repo/letmein/src/client.rs:78-80,107-109`; the session's: `/repo/letmeind/src/protocol.rs:56-58,87-89`. -/
inductive TimedStep (fconf : Config) (tc ts : Duration) : Timed → Nat → TEv → Timed → Prop where
  | client {T t W'} : T.now ≤ t → WStep fconf T.W .exchange W' → W'.server = T.W.server →
      TimedStep fconf tc ts T t (.step .exchange) ⟨W', t, t, T.sSince, t⟩
  | session {T t W'} : T.now ≤ t → WStep fconf T.W .exchange W' → W'.client = T.W.client →
      TimedStep fconf tc ts T t (.step .exchange) ⟨W', t, T.cSince, t, t⟩
  | serve {T t m W'} : T.now ≤ t → WStep fconf T.W (.serve m t) W' →
      TimedStep fconf tc ts T t (.step (.serve m t)) ⟨W', t, T.cSince, T.sSince, t⟩
  | other {T t op W'} : T.now ≤ t → (∀ at', op.clock = some at' → at' = t) → WStep fconf T.W (.other op) W' →
      TimedStep fconf tc ts T t (.step (.other op)) ⟨W', t, T.cSince, T.sSince, T.last⟩
  | clientTimeout {T t p} : T.now ≤ t → T.cSince + tc ≤ t → T.W.client.afterTimeout = some p →
      TimedStep fconf tc ts T t .clientTimeout ⟨{ T.W with client := p }, t, t, T.sSince, t⟩
  | sessionTimeout {T t p} : T.now ≤ t → T.sSince + ts ≤ t → T.W.server.afterTimeout = some p →
      TimedStep fconf tc ts T t .sessionTimeout ⟨{ T.W with server := p }, t, T.cSince, t, t⟩

/-- All at the start at time `t0`, see `/repo/letmein/src/command/knock.rs:77-140` and `/repo/letmeind/src/main.rs:168-179`. -/
def Timed.init (W : Whole) (t0 : Nat) : Timed := { W, now := t0, cSince := t0, sSince := t0, last := t0 }

/-- Several steps, in the order of `/repo/letmein/src/command/knock.rs:77-140` and `/repo/letmeind/src/protocol.rs:114-189`. -/
inductive TimedSteps (fconf : Config) (tc ts : Duration) : Timed → List (Nat × TEv) → Timed → Prop where
  | refl (T) : TimedSteps fconf tc ts T [] T
  | step {T T' T'' evs t e} : TimedSteps fconf tc ts T evs T' → TimedStep fconf tc ts T' t e T'' → TimedSteps fconf tc ts T (evs ++ [(t, e)]) T''

end Letmein
