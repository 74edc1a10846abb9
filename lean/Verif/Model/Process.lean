import Verif.Model.Main

/-!
# letmeinfwd as a process: how it ends

`Verif.Model.Main` ends where the tasks start and `Verif.Model.Daemon` follows them. This file adds what the outside sees of the process: signals during
start-up, and the exit status.
-/

namespace Letmein

/-- How a process ends. `killed`: by the default action of a signal. `aborted`: by a panic (`/repo/Cargo.toml` `panic = "abort"`). -/
inductive ProcEnd where
  | success
  | failure
  | killed
  | aborted
  deriving DecidableEq, Repr

/-- The return value of `main` as exit status (`/repo/letmeinfwd/src/main.rs:306-321`). -/
def ProcEnd.of : R Unit → ProcEnd
  | .ok _ => .success
  | .err => .failure
  | .panic => .aborted

/-! ## Exit status -/

/-- An event, and for a signal whether it is SIGINT instead of SIGTERM. -/
structure ProcEvent where
  ev : FwdEvent
  sigint : Bool

/-- `/repo/letmeinfwd/src/main.rs:265-289` the value of `exitcode` when the main loop ends. Both other tasks send errors only
(`/repo/letmeinfwd/src/main.rs:239`, `:257`). -/
def ProcEvent.exitcode (e : ProcEvent) : R Unit :=
  match e.ev with
  | .signal _ => if e.sigint then .err else .ok ()
  | _ => .err

/-- `/repo/letmeinfwd/src/main.rs:291-303` the exit status, given `exitcode` and the result of removing the rules. -/
def exitAfter (exitcode shutdown : R Unit) : ProcEnd :=
  match shutdown with
  | .panic => .aborted
  | .err => .of (match exitcode with | .ok _ => .err | e => e)
  | .ok _ => .of exitcode

/-- The daemon, and how it ended if it has. -/
structure FwdProcess where
  life : FwdLife
  ended : Option ProcEnd

/-- `/repo/letmeinfwd/src/main.rs:208-303` one event, with the exit status. -/
def procStep (setup : FwdSetup) (s : FwdProcess) (e : ProcEvent) : FwdProcess :=
  let life := lifeStep setup s.life e.ev
  match s.ended with
  | some x => { life, ended := some x }
  | none =>
    match s.life.opOf e.ev with
    | some (.terminate ok) =>
      { life, ended := some (exitAfter e.exitcode (s.life.core.fw.doShutdown setup.conf s.life.core.kernel ok).1) }
    | _ => { life, ended := if life.core.phase = .crashed then some .aborted else none }

/-- A history. -/
def procRun (setup : FwdSetup) : FwdProcess → List ProcEvent → FwdProcess
  | s, [] => s
  | s, e :: rest => procRun setup (procStep setup s e) rest

/-! ## Signals during start-up -/

/-- When SIGTERM, SIGINT or SIGHUP arrives while no handler is registered yet: before one of the steps of `/repo/letmeinfwd/src/main.rs:179-192`, or during
the last one, while the child process nft runs. The child is not killed with its parent; `taken`: the kernel has taken its batch or still does. -/
inductive BootPoint where
  | beforeUsers
  | beforeRundir
  | beforeConfig
  | beforeFirewall
  | inNft (taken : Bool)
  | beforeHandlers
  deriving DecidableEq, Repr

/-- How start-up ends: killed by a signal, or as without one. -/
inductive BootEnd where
  | killed
  | done (r : R FwdProc)

/-- `/repo/letmeinfwd/src/main.rs:178-217` start-up with a signal at the given time. Signals after the registration of the handlers
(`/repo/letmeinfwd/src/main.rs:194-197`) do not disturb it: they are events of `procRun`. -/
def fwdBoot (o : FwdOpts) (w : FwdWorld) : Option BootPoint → Kernel × BootEnd
  | none => ((fwdMain o w).1, .done (fwdMain o w).2)
  | some p =>
    if p = .beforeUsers then (w.kernel, .killed) else
    match readEtcPasswd o.testMode w.passwd w.group with
    | .err => (w.kernel, .done .err)
    | .panic => (w.kernel, .done .panic)
    | .ok ids =>
      if p = .beforeRundir then (w.kernel, .killed) else
      match (fwdMakeRunSubdir w.fsEnv o.testMode ids.2 w.fs).res with
      | .err => (w.kernel, .done .err)
      | .panic => (w.kernel, .done .panic)
      | .ok _ =>
        if p = .beforeConfig then (w.kernel, .killed) else
        match (Config.new .Server).load w.f64 w.order o.config w.file with
        | (.err, _) => (w.kernel, .done .err)
        | (.panic, _) => (w.kernel, .done .panic)
        | (.ok _, conf) =>
          if p = .beforeFirewall ∨ p = .inNft false then (w.kernel, .killed) else
          match NftFirewall.new conf w.kernel w.nftOk with
          | (.err, k) => (k, if p = .inNft true then .killed else .done .err)
          | (.panic, k) => (k, if p = .inNft true then .killed else .done .panic)
          | (.ok _, k) => (k, .killed)

end Letmein
