import Verif.Model.Session
import Verif.Model.Client

/-!
# Model: waiting times

An answered action together with how long the answer took, in nanoseconds. `tokio::time::timeout(t, f)` ends with an error after `t` if `f` has
not ended by then; the time the program itself computes is not counted.
-/

namespace Letmein

open Prog

/-- The time limits: `/repo/letmeind/src/protocol.rs:56,87` and `/repo/letmein/src/client.rs:78,107` put `control_timeout` around receiving from and
sending to the peer. There is none around connecting (`/repo/letmein/src/client.rs:38-66`) and around talking to letmeinfwd
(`/repo/letmeind/src/firewall_client.rs:24,38-46`). -/
def Act.limit (timeout : Duration) : Act → Option Duration
  | .recv => some timeout
  | .send _ => some timeout
  | _ => none

/-- An answered action and its duration. -/
abbrev TimedEv := Ev × Duration

/-- No action with a limit takes longer than this. -/
def InTime (timeout : Duration) (tr : List TimedEv) : Prop := ∀ x ∈ tr, ∀ t, x.1.1.limit timeout = some t → x.2 ≤ t

end Letmein
