import Verif.Model.Main
import Verif.Model.Units

/-!
# Model: the start of the daemons, step by step, and the message to systemd

`Model/Main.lean` says what the start-up of letmeind and of letmeinfwd results in. Here is the same start-up with a record of the steps that it got
through, among them the message `READY=1` to systemd (`systemd_notify_ready`, `/repo/letmein-systemd/src/lib.rs:182-188`).

Both services have `Type=notify` (`/repo/letmeind/letmeind.service:9-10`, `/repo/letmeinfwd/letmeinfwd.service:8-9`): systemd regards the service as
started, and starts what is ordered after it, when the message arrives (systemd.service(5)), and ends the attempt to start it if it does not come in
time. Simplification: the message arrives if `sd_notify` reports success.
-/

namespace Letmein

/-- A part of the start-up that has been completed. -/
inductive StartStep where
  /-- `read_etc_passwd`, `/repo/letmeinfwd/src/main.rs:180` -/
  | accounts
  /-- `make_run_subdir`, `/repo/letmeind/src/main.rs:124`, `/repo/letmeinfwd/src/main.rs:183` -/
  | runDir
  /-- `conf.load`, `/repo/letmeind/src/main.rs:127-130`, `/repo/letmeinfwd/src/main.rs:186-189` -/
  | config
  /-- `NftFirewall::new`, `/repo/letmeinfwd/src/main.rs:192` -/
  | firewall
  /-- `systemd_notify_ready`, `/repo/letmeind/src/server.rs:171-173`, `/repo/letmeinfwd/src/server.rs:166` -/
  | ready
  /-- `Server::new`, `FirewallServer::new` -/
  | listening
  /-- `make_pidfile`, `/repo/letmeind/src/main.rs:146`, `/repo/letmeinfwd/src/main.rs:209` -/
  | pidFile
  /-- `install_seccomp_rules`, `/repo/letmeind/src/main.rs:149-150`, `/repo/letmeinfwd/src/main.rs:212-213` -/
  | filter
  /-- the tasks have been spawned -/
  | tasks
  deriving DecidableEq

/-- The steps completed, and how it went on. -/
abbrev Logged (α : Type) := List StartStep × R α

/-- Go on if there was neither an error nor a panic. -/
def Logged.andThen {α β : Type} (x : Logged α) (f : α → Logged β) : Logged β :=
  match x with
  | (l, .ok a) => (l ++ (f a).1, (f a).2)
  | (l, .err) => (l, .err)
  | (l, .panic) => (l, .panic)

/-- Something that is not recorded. -/
def silent {α : Type} (r : R α) : Logged α := ([], r)

/-- A step, recorded if it succeeds. -/
def stage {α : Type} (s : StartStep) (r : R α) : Logged α :=
  match r with
  | .ok a => ([s], .ok a)
  | .err => ([], .err)
  | .panic => ([], .panic)

/-- `/repo/letmeind/src/server.rs:123-175` `Server::new`, the sockets from systemd. -/
def lmFromSystemd (o : LmOpts) (w : LmWorld) (port : ControlPort) : Logged Listening :=
  if o.noSystemd then silent (.ok { tcp := none, udp := none })
  else
    (silent w.sockets).andThen fun ss =>
    (silent (serverSockets port w.usable { tcp := none, udp := none } ss)).andThen fun l =>
    if l.tcp.isSome || l.udp.isSome then
      (stage .ready (if w.notifyOk then .ok () else .err)).andThen fun _ => silent (.ok l)
    else silent (.ok l)

/-- `/repo/letmeind/src/server.rs:177-196` `Server::new`, own sockets if there is none from systemd. -/
def lmBind (w : LmWorld) (port : ControlPort) (l : Listening) : R Listening :=
  if l.tcp.isNone && l.udp.isNone then
    (bindIf port.tcp w.bindTcpOk port.port).bind fun tcp =>
    (bindIf port.udp w.bindUdpOk port.port).bind fun udp => .ok { tcp, udp }
  else .ok l

/-- `/repo/letmeind/src/main.rs:122-160` `async_main` up to the spawning of the accept task. -/
def lmLog (o : LmOpts) (w : LmWorld) : Logged LmProc :=
  let dir := createDirIfNotExists w.fsEnv (w.fsEnv.ok 0) lmDirPath w.fs
  (stage .runDir dir.res).andThen fun _ =>
  let loaded := (Config.new .Server).load w.f64 w.order o.config w.file
  (stage .config loaded.1).andThen fun _ =>
  let conf := loaded.2
  (lmFromSystemd o w conf.port).andThen fun l =>
  (stage .listening (lmBind w conf.port l)).andThen fun listening =>
  let pid := makePidfile w.fsEnv lmPidPath w.chunks w.pid dir.fs
  (stage .pidFile pid.res).andThen fun _ =>
  (stage .filter (installFor letmeindAllow w.platform o.seccomp conf w.installOk)).andThen fun filter =>
  (stage .tasks (lmStart o.limit)).andThen fun state =>
  silent (.ok { conf, listening, filter, fs := pid.fs, state })

/-- `/repo/letmeinfwd/src/server.rs:153-206` `FirewallServer::new`. -/
def fwdListenLog (o : FwdOpts) (w : FwdWorld) (gid : UInt32) (fs : Fs) : Logged Fs :=
  if !o.noSystemd then
    (silent w.sockets).andThen fun ss =>
    match ss with
    | .Unix fd :: _ =>
      (silent (if w.usable fd then .ok () else .err)).andThen fun _ =>
      (stage .ready (if w.notifyOk then .ok () else .err)).andThen fun _ => silent (.ok fs)
    | _ => silent .err
  else
    let b := fwdBindSocket w.fsEnv o.testMode gid fs
    (silent b.res).andThen fun _ => silent (.ok b.fs)

/-- `/repo/letmeinfwd/src/main.rs:178-217` `async_main` up to the spawning of the tasks. -/
def fwdLog (o : FwdOpts) (w : FwdWorld) : Logged FwdProc :=
  (stage .accounts (readEtcPasswd o.testMode w.passwd w.group)).andThen fun ids =>
  let dir := fwdMakeRunSubdir w.fsEnv o.testMode ids.2 w.fs
  (stage .runDir dir.res).andThen fun _ =>
  let loaded := (Config.new .Server).load w.f64 w.order o.config w.file
  (stage .config loaded.1).andThen fun _ =>
  let conf := loaded.2
  let new := NftFirewall.new conf w.kernel w.nftOk
  (stage .firewall new.1).andThen fun fw =>
  (fwdListenLog o w ids.2 dir.fs).andThen fun fs =>
  (stage .listening (.ok ())).andThen fun _ =>
  let pid := makePidfile w.fsEnv fwdPidPath w.chunks w.pid fs
  (stage .pidFile pid.res).andThen fun _ =>
  (stage .filter (installFor letmeinfwdAllow w.platform o.seccomp conf w.installOk)).andThen fun filter =>
  (stage .tasks (if o.limit > MAX_PERMITS then .panic else .ok ())).andThen fun _ =>
  silent (.ok
    { setup := { conf, testMode := o.testMode, ids }, filter, fs := pid.fs, own := o.noSystemd
      life := { core := { phase := .running, fw, kernel := new.2 }, accept := .accepting, permits := o.limit, exitMsg := false,
                conns := [], nextId := 0 } })

/-- systemd.unit(5): starting a unit also starts the units that it requires, and so on. -/
inductive Pulled (D : UnitDeps) (u : SysUnit) : SysUnit → Prop
  | asked : Pulled D u u
  | requires {v w : SysUnit} : Pulled D u v → w ∈ D.requires v → Pulled D u w

end Letmein
