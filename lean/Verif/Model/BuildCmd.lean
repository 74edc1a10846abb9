import Verif.Model.BuildScript

/-!
# Model: the build script for Windows

`/repo/build.cmd`. What the commands do is not modelled, only the statuses they end with. The lines of the script are interpreted one after the other as `cmd.exe` does; `goto` searches forward (the only label is below all
uses of it).
-/

namespace Letmein

/-- The commands of `/repo/build.cmd:1-17`. -/
inductive WinCmd where
  | clean
  | installAudit
  | installAuditable
  | build
  | testLetmein
  | testConf
  | testProto
  | auditableBuild
  | auditBin
  deriving DecidableEq, Repr

/-- The kinds of lines in `/repo/build.cmd:1-25`; the only label is `error`. -/
inductive BatLine where
  | run (c : WinCmd)
  | ifErrorGoto (level : Int)
  | echoSuccess
  | pause
  | exitB (status : Int)
  | errorLabel
  deriving DecidableEq, Repr

/-- A process status as `cmd.exe` compares it in `/repo/build.cmd:2` and all the other checks: the 32 bits as a signed number. -/
def winSigned (status : UInt32) : Int := if status.toNat < 2147483648 then (status.toNat : Int) else (status.toNat : Int) - 4294967296

/-- What is seen of a run of `/repo/build.cmd`: the commands that were run, whether `SUCCESS` was printed, the status. -/
structure BatEnd where
  ran : List WinCmd
  success : Bool
  status : Int
  deriving DecidableEq, Repr

/-- Run lines, see `/repo/build.cmd:1-25`. `findsLabel`: whether `goto` takes `@:error` (`/repo/build.cmd:23`, with an `@` before the colon) for the label; if it does not, `cmd.exe` complains and ends the script with status 1.
`skip`: on the way to the label. `level`: the current `ERRORLEVEL`. -/
def batRun (findsLabel : Bool) (status : WinCmd → UInt32) : Bool → Int → List BatLine → BatEnd
  | true, _, [] => ⟨[], false, 1⟩
  | false, level, [] => ⟨[], false, level⟩
  | true, level, .errorLabel :: rest => batRun findsLabel status (!findsLabel) level rest
  | true, level, _ :: rest => batRun findsLabel status true level rest
  | false, _, .run c :: rest =>
    let q := batRun findsLabel status false (winSigned (status c)) rest
    { q with ran := c :: q.ran }
  | false, level, .ifErrorGoto n :: rest => batRun findsLabel status (decide (n ≤ level)) level rest
  | false, level, .echoSuccess :: rest => { batRun findsLabel status false level rest with success := true }
  | false, level, .pause :: rest => batRun findsLabel status false level rest
  | false, _, .exitB n :: _ => ⟨[], false, n⟩
  | false, level, .errorLabel :: rest => batRun findsLabel status false level rest

/-- `/repo/build.cmd:1-25` -/
def buildCmdLines : List BatLine :=
  [.run .clean, .ifErrorGoto 1, .run .installAudit, .ifErrorGoto 1, .run .installAuditable, .ifErrorGoto 1, .run .build, .ifErrorGoto 1, .run .testLetmein, .ifErrorGoto 1, .run .testConf, .ifErrorGoto 1,
   .run .testProto, .ifErrorGoto 1, .run .auditableBuild, .ifErrorGoto 1, .run .auditBin, .ifErrorGoto 1, .echoSuccess, .pause, .exitB 0, .errorLabel, .pause, .exitB 1]

/-- A run of `/repo/build.cmd`. -/
def buildCmdScript (findsLabel : Bool) (status : WinCmd → UInt32) : BatEnd := batRun findsLabel status false 0 buildCmdLines

end Letmein
