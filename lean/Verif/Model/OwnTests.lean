import Verif.Model.NftRuns
import Verif.Model.Main

/-!
# The tests of letmein itself

`/repo/tests`: the configuration files, the stub that is run in place of `nft`, and what the script looks at. The script's build steps, its waiting and its
cleaning up are not modelled.
-/

namespace Letmein

/-- `/repo/tests/conf/tcp.conf:1-19` and `/repo/tests/conf/udp.conf:1-19`, line by line. -/
def testConf (udp : Bool) : List String :=
  ["[GENERAL]",
   "debug = true",
   (if udp then "port = 5810 / udp" else "port = 5810 / tcp"),
   "control-timeout = 5.0",
   "control-error-policy = always",
   "seccomp = kill",
   "",
   "[NFTABLES]",
   "exe = nft",
   "family = inet",
   "table = filter",
   "chain-input = LETMEIN-INPUT",
   "timeout = 600",
   "",
   "[KEYS]",
   "12345678 = 80E9C81DFA4879B2C64910E1B6870DA42DFB82261B76C859F3A0F5A09DEA2A3D",
   "",
   "[RESOURCES]",
   "87654321 = port: 42"]

/-- `/repo/tests/stubs/nft/src/bin/nft.rs:16-26`: whether the stub exits successfully. What it reads is UTF-8, as it comes from a `String`. -/
def stubAccepts (ch : Child) : Bool := ch.program :: ch.args = ["nft".toList, "-j".toList, "-f".toList, "-".toList]

/-- `/repo/tests/stubs/nft/src/bin/nft.rs:16-26`: the operation of letmeinfwd with the stub's answers in place of those of `nft`, and nobody else who changes the ruleset. -/
def withStub (conf : Config) : FwdOp → FwdOp
  | .request rx now _ => .request rx now (stubAccepts (applyChild conf []))
  | .maintain now _ => .maintain now
    { listOk := stubAccepts (listChild conf), deleteOk := stubAccepts (applyChild conf []), rebuildOk := stubAccepts (applyChild conf [])
      afterList := id, beforeRebuild := id }
  | .terminate _ => .terminate (stubAccepts (applyChild conf []))
  | op => op

/-- `cut -d<d> -f<n>` of `/repo/tests/run-tests.sh:49-50` on a single line, see `cut(1)`: a line without the delimiter is passed on. -/
def cutField (d : Char) (n : Nat) (line : Str) : Str := if d ∈ line then (splitOn d line).getD (n - 1) [] else line

/-- `/repo/tests/run-tests.sh:49,52` the user in the line that `gen-key` has printed. -/
def genkeyUser (line : Str) : Str := cutField ' ' 1 (cutField '=' 1 line)

/-- `/repo/tests/run-tests.sh:50` the key in this line. -/
def genkeyKey (line : Str) : Str := cutField ' ' 2 (cutField '=' 2 line)

/-- `$(cat …)` of `/repo/tests/run-tests.sh:121`: the content without the line ends at its end. -/
def shellOutput (content : Str) : Str := (content.reverse.dropWhile (· = '\n')).reverse

/-- `/repo/tests/run-tests.sh:119-124` one look at a pid file: `none` if it cannot be read, and then the script waits; otherwise whether it has the expected content. -/
def pidCheck (fs : Fs) (path : Str) (pid : UInt32) : Option Bool := (fsRead fs path).map fun content => showNat pid.toNat = shellOutput content

/-- `/repo/tests/run-tests.sh:65-69` the command line of letmeinfwd; `/repo/letmeinfwd/src/main.rs:127-128` the limit. -/
def testFwdOpts (config : Str) : FwdOpts := { config, limit := 8, noSystemd := true, seccomp := none, testMode := true }

/-- `/repo/tests/run-tests.sh:73-76` the command line of letmeind; `/repo/letmeind/src/main.rs:89-90` the limit. -/
def testLmOpts (config : Str) : LmOpts := { config, limit := 8, noSystemd := true, seccomp := none }

end Letmein
