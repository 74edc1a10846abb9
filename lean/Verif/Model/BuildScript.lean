import Verif.Model.OwnTests

/-!
# Model: the build script

`/repo/build.sh`. What the commands do that it runs is not modelled, only whether they succeed, and what `ldd` prints. The script's check of the libraries is modelled in full:
`$(…)`, `printf`, `read`, `awk`, `grep`, pipelines and `exit` as POSIX defines them. `IFS` has its default value.
-/

namespace Letmein

/-- The commands of `/repo/build.sh:31-46` that the script checks. -/
inductive BuildCmd where
  | tomlThere
  | cd
  | build
  | test
  | auditableBuild
  | auditBin
  | releaseBuild
  deriving DecidableEq, Repr

/-- The programs that are looked at, `/repo/build.sh:47-49`. -/
inductive Built where
  | letmein
  | letmeind
  | letmeinfwd
  deriving DecidableEq, Repr

/-- What the script meets: whether the commands succeed, whether there is `cargo-auditable` (`/repo/build.sh:37`), what `ldd` prints for the programs (`/repo/build.sh:15`). `lastInSubshell`: whether the
shell runs the last command of a pipeline in a subshell (dash, bash, busybox) or not (ksh, zsh); POSIX leaves it open. -/
structure BuildEnv where
  succeeds : BuildCmd → Bool
  auditable : Bool
  ldd : Built → Str
  lastInSubshell : Bool

/-- A space or a tab: what `read` (`/repo/build.sh:18`) and `awk` (`/repo/build.sh:19-26`) take for blanks in a line. -/
def shBlank (c : Char) : Bool := c = ' ' || c = '\t'

/-- `awk '{ print $1; }'` of `/repo/build.sh:19-26` for a single line. That `read -r` has removed blanks at the ends before makes no difference for the first word. -/
def awkFirst (line : Str) : Str := (line.dropWhile shBlank).takeWhile fun c => !shBlank c

/-- `grep -qe` with a pattern that is a literal text, as in `/repo/build.sh:19-22,24,26`: anywhere in the line. -/
def grepText (pat : Str) : Str → Bool
  | [] => pat.isPrefixOf []
  | c :: cs => pat.isPrefixOf (c :: cs) || grepText pat cs

/-- `grep -qe` with a pattern `a.*b` of literal texts `a` and `b`, as in `/repo/build.sh:23,25`. -/
def grepTwo (a b : Str) : Str → Bool
  | [] => a.isPrefixOf [] && grepText b ([].drop a.length)
  | c :: cs => (a.isPrefixOf (c :: cs) && grepText b ((c :: cs).drop a.length)) || grepTwo a b cs

/-- `/repo/build.sh:19-26` -/
def knownLib (w : Str) : Bool :=
  grepText "linux-vdso.so".toList w || grepText "libgcc_s.so".toList w || grepText "libm.so".toList w || grepText "libc.so".toList w ||
  grepTwo "ld-linux-".toList ".so".toList w || grepText "ld-android.so".toList w || grepTwo "libarmmem-".toList ".so".toList w || grepText "libdl.so".toList w

/-- `printf '%s' … | while read -r line` of `/repo/build.sh:18`: the lines for which the body runs. `read` fails at the end of the input, also if it has read something that no line end
follows. -/
def readLines (s : Str) : List Str := (splitOn '\n' s).dropLast

/-- How `check_dynlibs` ends: with a status, or it ends the script. -/
inductive CheckEnd where
  | status (n : Nat)
  | exits
  deriving DecidableEq, Repr

/-- `/repo/build.sh:8-29` `check_dynlibs`: how it ends, and the line that it complains about. `die` in the loop (`/repo/build.sh:27`) ends the subshell that the loop runs in, if there is one, and the status of the
pipeline is that of the loop. -/
def checkDynlibs (sub : Bool) (printed : Str) : CheckEnd × Option Str :=
  let out := shellOutput printed
  if out = [] then (.exits, none)
  else match (readLines out).find? fun line => !knownLib (awkFirst line) with
    | some line => (if sub then .status 1 else .exits, some line)
    | none => (.status 0, none)

/-- `/repo/build.sh:31-46`: does the script get to its last part? Each command is followed by `|| die`. -/
def buildCommands (env : BuildEnv) : Bool :=
  env.succeeds .tomlThere && env.succeeds .cd && env.succeeds .build && env.succeeds .test &&
  if env.auditable then env.succeeds .auditableBuild && env.succeeds .auditBin else env.succeeds .releaseBuild

/-- `/repo/build.sh:47-49`: the checks, one after the other; the exit status of the script and what was complained about. The status of the last command is that of the script. -/
def buildChecks (env : BuildEnv) : List Built → Nat → Nat × List (Built × Str)
  | [], last => (last, [])
  | p :: ps, _ =>
    let r := checkDynlibs env.lastInSubshell (env.ldd p)
    let said := r.2.toList.map fun line => (p, line)
    match r.1 with
    | .exits => (1, said)
    | .status n => let rest := buildChecks env ps n; (rest.1, said ++ rest.2)

/-- `/repo/build.sh` as a whole. -/
def buildScript (env : BuildEnv) : Nat × List (Built × Str) :=
  if buildCommands env then buildChecks env [.letmein, .letmeind, .letmeinfwd] 0 else (1, [])

end Letmein
