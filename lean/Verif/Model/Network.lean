import Verif.Model.Session
import Verif.Model.Client

/-!
# Many sessions and an active network attacker

Any number of client and server sessions run interleaved. What a session receives is whatever the attacker likes
(the network adds no constraint at all), and so are the answers of the random generators and of letmeinfwd: the attacker
may read, drop, delay, reorder, replay, modify and invent messages, and may know any keys.
-/

namespace Letmein

open Prog

/-- What runs in a session: nothing, a client (`/repo/letmein/src/command/knock.rs:77-127`) on a host with address
`addr`, or a server session for a connection from `peer` (`/repo/letmeind/src/protocol.rs:119-237`, spawned at
`/repo/letmeind/src/main.rs:157-190`). -/
inductive Party where
  | nobody
  | client (addr : IpAddr) (user : UserId) (resource : ResourceId) (key : Key)
  | server (conf : Config) (peer : IpAddr)

/-- The program of a session. -/
def Party.prog (mac : MacFn) : Party → Prog Unit
  | .nobody => .ret (.ok ())
  | .client _ u r key => knockSequence mac u r key
  | .server conf peer => session mac conf peer

/-- An event of session `.1`. -/
abbrev GEv := Nat × Ev

/-- The events of one session. -/
def proj (sid : Nat) (G : List GEv) : List Ev := (G.filter (fun e => e.1 = sid)).map (·.2)

/-- A global history: what each session did is an initial part of a run of its program. -/
def GlobalRun (mac : MacFn) (who : Nat → Party) (G : List GEv) : Prop :=
  ∀ sid, ∃ o, ((who sid).prog mac).Trace (proj sid G) o

end Letmein
