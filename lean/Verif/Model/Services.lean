import Verif.Model.Ready

/-!
# The scripts that stop, start, enable and disable the units

`/repo/install-server.sh`, `/repo/restart.sh` and the functions of `/repo/scripts/lib.sh` as sequences of calls of systemctl; what the other commands do to
files is in `Model/Install.lean`, here they only succeed or fail.

systemd is modelled after systemctl(1) and systemd.unit(5). Simplifications: units change their state only by these calls (a service that ends by itself
is left out); what a call that fails does is arbitrary, but for what it cannot touch (`Failed`).
-/

namespace Letmein

/-- Which units are started at boot (`[Install]` `WantedBy=`), and which are started now. -/
structure UnitsState where
  enabled : SysUnit → Prop
  active : SysUnit → Prop

/-- A command of a script. -/
inductive SysCall where
  | stop (u : SysUnit)
  | start (u : SysUnit)
  | enable (u : SysUnit)
  | disable (u : SysUnit)
  /-- any other command: `install`, `chown`, `chmod`, the checks at the beginning -/
  | other

/-- What a command that succeeds does. `stop` reaches the same units as `restart` (systemd.unit(5), `Requires=` and `PartOf=`). -/
def SysCall.apply (D : UnitDeps) (c : SysCall) (s : UnitsState) : UnitsState :=
  match c with
  | .stop u => { s with active := fun v => s.active v ∧ ¬ Restarted D u v }
  | .start u => { s with active := fun v => s.active v ∨ Pulled D u v }
  | .enable u => { s with enabled := fun v => s.enabled v ∨ v = u }
  | .disable u => { s with enabled := fun v => s.enabled v ∧ v ≠ u }
  | .other => s

/-- What a command that fails may have done: `stop` and `start` do not change what is enabled, `enable` and `disable` concern their unit only and
neither start nor stop anything. -/
def SysCall.Failed (c : SysCall) (s s' : UnitsState) : Prop :=
  match c with
  | .stop _ => s'.enabled = s.enabled
  | .start _ => s'.enabled = s.enabled
  | .enable u => s'.active = s.active ∧ ∀ v, v ≠ u → (s'.enabled v ↔ s.enabled v)
  | .disable u => s'.active = s.active ∧ ∀ v, v ≠ u → (s'.enabled v ↔ s.enabled v)
  | .other => s' = s

/-- A command of a script; if one that must succeed fails, the script ends (`die`, `/repo/scripts/lib.sh:18-22`). -/
structure ScriptStep where
  must : Bool
  call : SysCall

/-- `/repo/scripts/lib.sh:48-52` `try_systemctl`: the exit status is ignored. -/
def trySystemctl (c : SysCall) : ScriptStep := ⟨false, c⟩

/-- `/repo/scripts/lib.sh:30-34` `do_systemctl`. -/
def doSystemctl (c : SysCall) : ScriptStep := ⟨true, c⟩

/-- `/repo/scripts/lib.sh:24-28,36-46` `do_install`, `do_chown`, `do_chmod`; `entry_checks`. -/
def doOther : ScriptStep := ⟨true, .other⟩

/-- `/repo/scripts/lib.sh:54-64` `stop_services`. -/
def stopServices : List ScriptStep :=
  [trySystemctl (.stop .lmSocket), trySystemctl (.stop .lm), trySystemctl (.stop .fwdSocket), trySystemctl (.stop .fwd),
   trySystemctl (.disable .lm), trySystemctl (.disable .lmSocket), trySystemctl (.disable .fwd), trySystemctl (.disable .fwdSocket)]

/-- `/repo/scripts/lib.sh:66-72` `start_services`. -/
def startServices : List ScriptStep :=
  [doSystemctl (.start .fwdSocket), doSystemctl (.start .fwd), doSystemctl (.start .lmSocket), doSystemctl (.start .lm)]

/-- `/repo/restart.sh:8-15`. -/
def restartScript : List ScriptStep := doOther :: (stopServices ++ startServices)

/-- `/repo/install-server.sh:46-65` `install_letmeinfwd`. -/
def installFwdCalls : List ScriptStep := [doOther, doOther, doOther, doSystemctl (.enable .fwdSocket), doSystemctl (.enable .fwd)]

/-- `/repo/install-server.sh:67-86` `install_letmeind`. -/
def installLmCalls : List ScriptStep := [doOther, doOther, doOther, doSystemctl (.enable .lmSocket), doSystemctl (.enable .lm)]

/-- `/repo/install-server.sh:105-111`: `entry_checks`, `stop_services`, `install_dirs`, `install_conf` (one or two commands; a second one that does
nothing is added), and so on. -/
def installScript : List ScriptStep :=
  doOther :: (stopServices ++ ([doOther, doOther, doOther, doOther] ++ (installFwdCalls ++ (installLmCalls ++ startServices))))

/-- A run of a script, with the state that it leaves and whether it came to its end. -/
inductive ScriptRun (D : UnitDeps) : UnitsState → List ScriptStep → UnitsState → Bool → Prop
  | done (s : UnitsState) : ScriptRun D s [] s true
  | ok {s s' : UnitsState} {c : ScriptStep} {rest : List ScriptStep} {b : Bool} :
      ScriptRun D (c.call.apply D s) rest s' b → ScriptRun D s (c :: rest) s' b
  | ignored {s s1 s' : UnitsState} {c : ScriptStep} {rest : List ScriptStep} {b : Bool} :
      c.must = false → c.call.Failed s s1 → ScriptRun D s1 rest s' b → ScriptRun D s (c :: rest) s' b
  | died {s s1 : UnitsState} {c : ScriptStep} {rest : List ScriptStep} :
      c.must = true → c.call.Failed s s1 → ScriptRun D s (c :: rest) s1 false

/-- The next boot: the enabled units are started, and what they require. -/
def UnitsState.booted (D : UnitDeps) (s : UnitsState) (u : SysUnit) : Prop := ∃ v, s.enabled v ∧ Pulled D v u

end Letmein
