import Verif.Model.Knock
import Verif.Model.Conf
import Verif.Model.Seccomp
import Verif.Model.Daemon
import Verif.Model.RunDir

/-!
# Model: the `main` functions

The three programs from the parsed command line on. Parsing of the command line by clap is not modelled, `Opts` are its result.
-/

namespace Letmein

/-! ## letmein -/

/-- `/repo/letmein/src/main.rs:139-238` `Command`. -/
inductive ClientCommand where
  | knock (host : Str) (port : UInt16) (user : Option UserId) (serverPort : Option UInt16) (serverPortTcp serverPortUdp ipv4 ipv6 : Bool)
  | genKey (user : Option UserId)

/-- `/repo/letmein/src/main.rs:73-125` `Opts` (without `verbose`, which only prints); `config` is the path of `get_config` (`:127-136`). -/
structure ClientOpts where
  config : Str
  command : Option ClientCommand
  dns : ResSrv
  dnsCrypt : ResCrypt
  seccomp : Option Seccomp
  version : Bool

/-- The environment of the client: the configuration file, the platform, whether the filter can be installed, name servers, connections, and the random
generator of `gen-key`. `exchange` as in `runKnock`. -/
structure ClientWorld where
  f64 : F64Secs
  order : IterOrder
  file : FileContent
  platform : Option SecPlatform
  installOk : Bool
  parseIp : ParseIp
  dns : Dns
  opens : Opens
  exchange : UserId → ResourceId → Key → NetAct → R Unit
  rand : Option (Arr KEY_SIZE)

/-- What the client does that can be seen from outside. -/
inductive ClientEv where
  /-- a filter is in force from here on -/
  | filter (f : SecFilter)
  | net (a : NetAct)
  | print (line : Str)

/-- `/repo/letmein/src/main.rs:252-300` the subcommand. -/
def clientCommand (o : ClientOpts) (w : ClientWorld) (conf : Config) : List ClientEv × R Unit :=
  match o.command with
  | some (.knock host port user serverPort tcp udp ipv4 ipv6) =>
    let r := runKnock w.parseIp w.dns w.opens w.exchange conf
      { addr := host, addrMode := AddrMode.ofFlags ipv4 ipv6, port := serverPort, portTcp := tcp, portUdp := udp } port user o.dns o.dnsCrypt
    (r.1.map .net, r.2)
  | some (.genKey user) =>
    match secureRandom KEY_SIZE w.rand with
    | .ok key => ([.print (genkeyLine conf user key)], .ok ())
    | .err => ([], .err)
    | .panic => ([], .panic)
  | none => ([], .err)

/-- `/repo/letmein/src/main.rs:241-300` `async_main`. -/
def clientAsyncMain (o : ClientOpts) (w : ClientWorld) : List ClientEv × R Unit :=
  match (Config.new .Client).load w.f64 w.order o.config w.file with
  | (.ok _, conf) =>
    match installFor letmeinAllow w.platform o.seccomp conf w.installOk with
    | .ok f =>
      let r := clientCommand o w conf
      ((f.toList.map .filter) ++ r.1, r.2)
    | .err => ([], .err)
    | .panic => ([], .panic)
  | (.err, _) => ([], .err)
  | (.panic, _) => ([], .panic)

/-- `/repo/letmein/src/main.rs:302-316` `main`; the printed version number is left out. -/
def clientMain (o : ClientOpts) (w : ClientWorld) : List ClientEv × R Unit :=
  if o.version then ([], .ok ()) else clientAsyncMain o w

/-! ## letmeind -/

/-- `/repo/letmeind/src/main.rs:78-120` `Opts`; `config` is the path of `get_config`. -/
structure LmOpts where
  config : Str
  limit : Nat
  noSystemd : Bool
  seccomp : Option Seccomp

/-- The environment of letmeind during start-up: the run directory and the process (`RunDir`), the configuration file, the sockets (`serverNew`), the
platform. -/
structure LmWorld where
  fsEnv : FsEnv
  fs : Fs
  chunks : List Nat
  pid : UInt32
  f64 : F64Secs
  order : IterOrder
  file : FileContent
  sockets : R (List SystemdSocket)
  usable : Nat → Bool
  notifyOk : Bool
  bindTcpOk : Bool
  bindUdpOk : Bool
  platform : Option SecPlatform
  installOk : Bool

/-- letmeind when its tasks start. -/
structure LmProc where
  conf : Config
  listening : Listening
  filter : Option SecFilter
  fs : Fs
  state : LmState

/-- `/repo/letmeind/src/main.rs:122-160` `async_main` up to the spawning of the accept task. (Registration of the signal handlers is left out.) -/
def lmMain (o : LmOpts) (w : LmWorld) : R LmProc := do
  let dir := createDirIfNotExists w.fsEnv (w.fsEnv.ok 0) lmDirPath w.fs
  dir.res
  let loaded := (Config.new .Server).load w.f64 w.order o.config w.file
  loaded.1
  let conf := loaded.2
  let listening ← serverNew conf.port o.noSystemd w.sockets w.usable w.notifyOk w.bindTcpOk w.bindUdpOk
  let pid := makePidfile w.fsEnv lmPidPath w.chunks w.pid dir.fs
  pid.res
  let filter ← installFor letmeindAllow w.platform o.seccomp conf w.installOk
  let state ← lmStart o.limit
  .ok { conf, listening, filter, fs := pid.fs, state }

/-! ## letmeinfwd -/

/-- `/repo/letmeinfwd/src/main.rs:116-153` `Opts`. -/
structure FwdOpts where
  config : Str
  limit : Nat
  noSystemd : Bool
  seccomp : Option Seccomp
  testMode : Bool

/-- The environment of letmeinfwd during start-up. -/
structure FwdWorld where
  passwd : Option Str
  group : Option Str
  fsEnv : FsEnv
  fs : Fs
  chunks : List Nat
  pid : UInt32
  f64 : F64Secs
  order : IterOrder
  file : FileContent
  kernel : Kernel
  nftOk : Bool
  sockets : R (List SystemdSocket)
  usable : Nat → Bool
  notifyOk : Bool
  platform : Option SecPlatform
  installOk : Bool

/-- letmeinfwd when its tasks start. `own`: it listens on its own socket in the run directory. -/
structure FwdProc where
  setup : FwdSetup
  filter : Option SecFilter
  fs : Fs
  own : Bool
  life : FwdLife

/-- `/repo/letmeinfwd/src/server.rs:153-206` `FirewallServer::new` with the run directory: with systemd the first socket passed, otherwise an own
one. -/
def fwdListen (o : FwdOpts) (w : FwdWorld) (gid : UInt32) (fs : Fs) : R Fs :=
  if !o.noSystemd then
    match w.sockets with
    | .ok (.Unix fd :: _) => if !w.usable fd then .err else if !w.notifyOk then .err else .ok fs
    | .panic => .panic
    | _ => .err
  else
    match fwdBindSocket w.fsEnv o.testMode gid fs with
    | ⟨.ok _, _, fs'⟩ => .ok fs'
    | ⟨.err, _, _⟩ => .err
    | ⟨.panic, _, _⟩ => .panic

/-- `/repo/letmeinfwd/src/main.rs:203-217` after the firewall has been initialized. -/
def fwdReady (o : FwdOpts) (w : FwdWorld) (conf : Config) (gid : UInt32) (fs : Fs) : R (Fs × Option SecFilter) := do
  let fs ← fwdListen o w gid fs
  let pid := makePidfile w.fsEnv fwdPidPath w.chunks w.pid fs
  pid.res
  let filter ← installFor letmeinfwdAllow w.platform o.seccomp conf w.installOk
  .ok (pid.fs, filter)

/-- `/repo/letmeinfwd/src/main.rs:178-217` `async_main` up to the spawning of the tasks: the ruleset afterwards, and the process if it got there. -/
def fwdMain (o : FwdOpts) (w : FwdWorld) : Kernel × R FwdProc :=
  match readEtcPasswd o.testMode w.passwd w.group with
  | .ok ids =>
    match fwdMakeRunSubdir w.fsEnv o.testMode ids.2 w.fs with
    | ⟨.ok _, _, fs⟩ =>
      match (Config.new .Server).load w.f64 w.order o.config w.file with
      | (.ok _, conf) =>
        match NftFirewall.new conf w.kernel w.nftOk with
        | (.ok fw, k) =>
          (k, (fwdReady o w conf ids.2 fs).bind fun r =>
            if o.limit > MAX_PERMITS then .panic
            else .ok
              { setup := { conf, testMode := o.testMode, ids }, filter := r.2, fs := r.1, own := o.noSystemd
                life := { core := { phase := .running, fw, kernel := k }, accept := .accepting, permits := o.limit, exitMsg := false,
                          conns := [], nextId := 0 } })
        | (.err, k) => (k, .err)
        | (.panic, k) => (k, .panic)
      | (.err, _) => (w.kernel, .err)
      | (.panic, _) => (w.kernel, .panic)
    | ⟨.err, _, _⟩ => (w.kernel, .err)
    | ⟨.panic, _, _⟩ => (w.kernel, .panic)
  | .err => (w.kernel, .err)
  | .panic => (w.kernel, .panic)

end Letmein
