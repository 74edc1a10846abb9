import Verif.Model.Install
import Verif.Model.Services
import Verif.Model.Accounts

/-!
# Model: uninstalling

The commands of `/repo/doc/INSTALL.md:117-132`, typed by root into a shell: a command that fails does not keep the following ones from running. `rm` is the one of GNU coreutils.
Not modelled: symbolic links (those that `systemctl enable` makes are the state `enabled` of `Model/Services.lean`), mount points.
-/

namespace Letmein

/-- `/repo/doc/INSTALL.md:118-125`: the calls of systemctl. -/
def uninstallCalls : List ScriptStep :=
  [trySystemctl (.stop .lmSocket), trySystemctl (.stop .lm), trySystemctl (.stop .fwdSocket), trySystemctl (.stop .fwd),
   trySystemctl (.disable .lm), trySystemctl (.disable .lmSocket), trySystemctl (.disable .fwd), trySystemctl (.disable .fwdSocket)]

/-- The directory itself or something below it. -/
def belowDir (dir p : Str) : Bool := p == dir || (dir ++ ['/']).isPrefixOf p

/-- `rm path` (`/repo/doc/INSTALL.md:127-130`): directories are refused. -/
def rmFile (ok : Bool) (path : Str) (fs : Fs) : Fs :=
  match fs path with
  | some n => if ok = true ∧ n.kind ≠ .dir then fs.put path none else fs
  | none => fs

/-- `rm -r dir` (`/repo/doc/INSTALL.md:131`); `ok p`: whether what is at `p` can be removed. -/
def rmTree (ok : Str → Bool) (dir : Str) (fs : Fs) : Fs := fun p => if belowDir dir p && ok p then none else fs p

/-- `/repo/doc/INSTALL.md:131` -/
def optDir : Str := "/opt/letmein".toList

/-- `/repo/doc/INSTALL.md:127-131` the files. -/
def uninstallFiles (ok : Str → Bool) (fs : Fs) : Fs :=
  rmTree ok optDir (rmFile (ok fwdServiceFile) fwdServiceFile (rmFile (ok fwdSocketFile) fwdSocketFile
    (rmFile (ok lmServiceFile) lmServiceFile (rmFile (ok lmSocketFile) lmSocketFile fs))))

/-- What the instructions are about. -/
structure Host where
  fs : Fs
  units : UnitsState
  accounts : Accounts

/-- A run of `/repo/doc/INSTALL.md:117-132`. No command concerns the accounts. -/
def UninstallRun (D : UnitDeps) (ok : Str → Bool) (h h' : Host) : Prop :=
  ScriptRun D h.units uninstallCalls h'.units true ∧ h'.fs = uninstallFiles ok h.fs ∧ h'.accounts = h.accounts

end Letmein
