import Verif.Model.Network
import Verif.Model.Daemon
import Verif.Model.RunDir

/-!
# The whole system

Any number of clients and of letmeind's sessions with a network that is run by the attacker (`Verif.Model.Network`), together with the life of
letmeinfwd (`Verif.Model.Daemon`) in which any process may connect to the Unix socket. Messages stand for their bytes (`C01` to `C06`).
-/

namespace Letmein

open Prog

/-- What happens: an event of a client or of a session of letmeind, or an event of letmeinfwd. -/
inductive SysEv where
  | session (sid : Nat) (e : Ev)
  | fwd (ev : FwdEvent)

/-- What the clients and the sessions did. -/
def sessionEvs (evs : List SysEv) : List GEv := evs.filterMap (fun | .session sid e => some (sid, e) | _ => none)
/-- What happened to letmeinfwd. -/
def fwdEvents (evs : List SysEv) : List FwdEvent := evs.filterMap (fun | .fwd ev => some ev | _ => none)

/-- A history of the system. `pid` is the pid of letmeind. The programs follow their code; beyond that, two facts about the operating
system: nobody else writes letmeind's pid file (`/repo/letmeind/src/main.rs:67-76`), and what arrives on a connection made by letmeind's process has been sent by one of letmeind's
sessions (`/repo/letmeind/src/firewall_client.rs:22-56`). Connections of other processes may carry anything. -/
structure SystemRun (mac : MacFn) (who : Nat → Party) (setup : FwdSetup) (s0 : FwdLife) (pid : UInt32) (evs : List SysEv) : Prop where
  sessions : GlobalRun mac who (sessionEvs evs)
  pidFile : ∀ cred text, SysEv.fwd (.connect cred (some text)) ∈ evs → text = pidFileText pid
  unixSocket : ∀ a cred pf b m now ok c,
    evs = a ++ .fwd (.connect (some cred) pf) :: (b ++ .fwd (.message (lifeRun setup s0 (fwdEvents a)).nextId (.msg m) now ok) :: c) →
    cred.pid = some (pid.toNat : Int) →
    ∃ sid conf peer sent, who sid = .server conf peer ∧ SysEv.session sid ⟨.fwSend m, sent⟩ ∈ a ++ .fwd (.connect (some cred) pf) :: b

end Letmein
