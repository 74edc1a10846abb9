import Verif.Model.Takeover

/-!
# Specification vocabulary: which starts of letmeind get as far as the pid file
-/

namespace Letmein.Spec

open Letmein

/-- The start gets its configuration and its sockets. -/
def GetsSockets (o : LmOpts) (w : LmWorld) : Prop :=
  ∃ conf l, (Config.new .Server).load w.f64 w.order o.config w.file = (.ok (), conf) ∧
    serverNew conf.port o.noSystemd w.sockets w.usable w.notifyOk w.bindTcpOk w.bindUdpOk = .ok l

/-- letmeind's directory is there or can be made. -/
def DirReady (w : LmWorld) (fs : Fs) : Prop :=
  (fs lmDirPath = none ∧ w.fsEnv.ok 0 = true) ∨ ∃ n, fs lmDirPath = some n ∧ n.kind = .dir

/-- An event that leaves the pid file alone: a start that does not even get its sockets, and whatever is not a start of letmeind and does not write to its
pid file. -/
def KeepsPidFile (h : LmHost) : LmHostEvent → Prop
  | .lmStart o w => ¬ GetsSockets o w
  | .lmKilled o w _ => ¬ GetsSockets o w
  | .others fs => fs lmPidPath = h.fs lmPidPath
  | _ => True

/-- All events of a history do. -/
def KeepPidFile : LmHost → List LmHostEvent → Prop
  | _, [] => True
  | h, e :: rest => KeepsPidFile h e ∧ KeepPidFile (lmHostStep h e).2 rest

end Letmein.Spec
