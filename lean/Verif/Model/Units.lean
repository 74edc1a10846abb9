import Verif.Model.FwServer

/-!
# The systemd units

`/repo/letmeind/letmeind.service`, `/repo/letmeind/letmeind.socket`, `/repo/letmeinfwd/letmeinfwd.service`,
`/repo/letmeinfwd/letmeinfwd.socket`, and the distribution's `nftables.service`, that letmeinfwd.service requires.

systemd is modelled after systemd.unit(5) and systemd.socket(5): which units a request to stop or restart reaches, and in which orders the
units may be stopped and started. Simplifications: the units are active when the request is made; other units, targets and time-outs are
left out; a restart is a stop and a start, each of which takes effect at one moment.
-/

namespace Letmein

/-- The units. -/
inductive SysUnit where
  | lm
  | lmSocket
  | fwd
  | fwdSocket
  | nft
  deriving DecidableEq

/-- The settings that matter. -/
structure UnitDeps where
  requires : SysUnit → List SysUnit
  partOf : SysUnit → List SysUnit
  after : SysUnit → List SysUnit

/-- `/repo/letmeind/letmeind.service:1-6`, `/repo/letmeind/letmeind.socket:1-3`, `/repo/letmeinfwd/letmeinfwd.service:1-5`,
`/repo/letmeinfwd/letmeinfwd.socket:1-3`. A socket unit is implicitly before the service that it activates (systemd.socket(5)). -/
def shippedDeps : UnitDeps where
  requires
    | .lm => [.fwd]
    | .fwd => [.fwdSocket, .nft]
    | _ => []
  partOf
    | .lm => [.lmSocket]
    | .lmSocket => [.lm]
    | .fwd => [.fwdSocket]
    | .fwdSocket => [.fwd]
    | .nft => []
  after
    | .lm => [.fwd, .lmSocket]
    | .fwd => [.fwdSocket]
    | _ => []

/-- systemd.unit(5): `systemctl restart u` also restarts the units that require it or are part of it, and so on. -/
inductive Restarted (D : UnitDeps) (u : SysUnit) : SysUnit → Prop
  | asked : Restarted D u u
  | requires {v w : SysUnit} : Restarted D u v → v ∈ D.requires w → Restarted D u w
  | partOf {v w : SysUnit} : Restarted D u v → v ∈ D.partOf w → Restarted D u w

/-- A unit is stopped (`false`) or started (`true`). -/
abbrev UnitEv := SysUnit × Bool

/-- systemd.unit(5), `Before=` and `After=`: started in that order, stopped in the reverse order, and a stop comes before a start. A unit is
stopped before it is started again. -/
def MustPrecede (D : UnitDeps) (e e' : UnitEv) : Prop :=
  (e.1 = e'.1 ∧ e.2 = false ∧ e'.2 = true) ∨
  (e.1 ∈ D.after e'.1 ∧ e'.2 = true) ∨
  (e'.1 ∈ D.after e.1 ∧ e.2 = false)

/-- One way in which `systemctl restart u` may be carried out: every unit reached is stopped and started, in an order that the settings
allow. -/
structure RestartOrder (D : UnitDeps) (u : SysUnit) (evs : List UnitEv) : Prop where
  once : evs.Nodup
  all : ∀ v b, (v, b) ∈ evs ↔ Restarted D u v
  order : evs.Pairwise (fun e e' => ¬ MustPrecede D e' e)

/-- The distribution's `nftables.service`: what stopping it and starting it makes of the ruleset. -/
structure NftUnit where
  stopped : Kernel → Kernel
  loaded : Kernel → Kernel

/-- The server's ruleset, and its letmeinfwd: stopped, waiting for another attempt to start (`Restart=on-failure`,
`/repo/letmeinfwd/letmeinfwd.service:15-16`), or running. -/
inductive UnitHost where
  | off (k : Kernel)
  | failed (k : Kernel)
  | up (f : FwdState)

/-- The ruleset. -/
def UnitHost.kernel : UnitHost → Kernel
  | .off k => k
  | .failed k => k
  | .up f => f.kernel

/-- Another program has changed the ruleset. -/
def UnitHost.setKernel : UnitHost → Kernel → UnitHost
  | .off _, k => .off k
  | .failed _, k => .failed k
  | .up f, k => .up { f with kernel := k }

/-- What stopping and starting the units does. `systemctl stop` of letmeinfwd.service sends SIGTERM (`/repo/letmeinfwd/src/main.rs:265-301`);
the starts of letmeind and of the sockets do not touch the ruleset. -/
inductive UnitStep (conf : Config) (N : NftUnit) : UnitHost → UnitEv → UnitHost → Prop
  | nftStop (h : UnitHost) : UnitStep conf N h (.nft, false) (h.setKernel (N.stopped h.kernel))
  | nftStart (h : UnitHost) : UnitStep conf N h (.nft, true) (h.setKernel (N.loaded h.kernel))
  | fwdStop (f : FwdState) (ok : Bool) : UnitStep conf N (.up f) (.fwd, false) (.off (fwdStep conf f (.terminate ok)).2.kernel)
  | fwdCancel (k : Kernel) : UnitStep conf N (.failed k) (.fwd, false) (.off k)
  | fwdStart (k : Kernel) (ok : Bool) (f : FwdState) : Letmein.fwdStart conf k ok = some f → UnitStep conf N (.off k) (.fwd, true) (.up f)
  | fwdFail (k : Kernel) (ok : Bool) : Letmein.fwdStart conf k ok = none → UnitStep conf N (.off k) (.fwd, true) (.failed k)
  | lm (h : UnitHost) (b : Bool) : UnitStep conf N h (.lm, b) h
  | lmSocket (h : UnitHost) (b : Bool) : UnitStep conf N h (.lmSocket, b) h
  | fwdSocket (h : UnitHost) (b : Bool) : UnitStep conf N h (.fwdSocket, b) h

/-- What happens in between: letmeinfwd serves requests and maintains its leases, or it is started again. Nothing but `nftables.service`
changes the ruleset besides. -/
inductive OwnStep (conf : Config) : UnitHost → UnitHost → Prop
  | request (f : FwdState) (rx : FwRecvOut) (now : Nat) (ok : Bool) : OwnStep conf (.up f) (.up (fwdStep conf f (.request rx now ok)).2)
  | maintain (f : FwdState) (now : Nat) (env : NftEnv) : env.afterList = id → env.beforeRebuild = id → OwnStep conf (.up f) (.up (fwdStep conf f (.maintain now env)).2)
  | again (k : Kernel) (ok : Bool) (f : FwdState) : fwdStart conf k ok = some f → OwnStep conf (.failed k) (.up f)

/-- The units are stopped and started in this order. -/
inductive UnitRun (conf : Config) (N : NftUnit) : UnitHost → List UnitEv → UnitHost → Prop
  | done (h : UnitHost) : UnitRun conf N h [] h
  | ev {h h' h'' : UnitHost} {e : UnitEv} {evs : List UnitEv} : UnitStep conf N h e h' → UnitRun conf N h' evs h'' → UnitRun conf N h (e :: evs) h''
  | own {h h' h'' : UnitHost} {evs : List UnitEv} : OwnStep conf h h' → UnitRun conf N h' evs h'' → UnitRun conf N h evs h''

end Letmein
