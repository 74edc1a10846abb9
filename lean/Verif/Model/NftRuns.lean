import Verif.Model.FwServer
import Verif.Model.NftJson

/-!
# The programs that letmeinfwd starts

Models which child processes `/repo/letmeinfwd/src/firewall/nftables.rs` starts, with which command line and which standard input, and which file the system
runs then. The functions below repeat those of `Model/Firewall` and `Model/FwServer` with the list of children in front of the result; C128 proves that the
rest of the result is the same. A child that cannot be started is listed as well. The arguments that the crate `nftables` puts together for listing and for
applying a ruleset (`DEFAULT_ARGS` adds nothing to them) are taken from its documentation; `/repo/tests/stubs/nft/src/bin/nft.rs:18` expects those for applying.
-/

namespace Letmein

/-- A child process: `std::process::Command` of `/repo/letmeinfwd/src/firewall/nftables.rs:292-294`, and the ones of the crate `nftables`. The environment and the
working directory are those of letmeinfwd. -/
structure Child where
  program : Str
  args : List Str
  stdin : Str
  deriving DecidableEq

/-- `/repo/letmeinfwd/src/firewall/nftables.rs:292-294` the test run. -/
def helpChild (conf : Config) : Child := ⟨conf.nftExe, ["--help".toList], []⟩

/-- `/repo/letmeinfwd/src/firewall/nftables.rs:191-195` `get_current_ruleset_with_args_async`. -/
def listChild (conf : Config) : Child := ⟨conf.nftExe, ["-j".toList, "list".toList, "ruleset".toList], []⟩

/-- `/repo/letmeinfwd/src/firewall/nftables.rs:334-339` `apply_ruleset_with_args_async`. -/
def applyChild (conf : Config) (cmds : List NfCmd) : Child := ⟨conf.nftExe, ["-j".toList, "-f".toList, "-".toList], nftText cmds⟩

/-- `/repo/letmeinfwd/src/firewall/nftables.rs:332-343` `nftables_apply_batch`. -/
def applyBatchRun (conf : Config) (k : Kernel) (cmds : List NfCmd) (nftOk : Bool) : List Child × R Unit × Kernel :=
  ([applyChild conf cmds], applyBatch k cmds nftOk)

/-- `/repo/letmeinfwd/src/firewall/nftables.rs:346-392` `nftables_full_rebuild`. -/
def fullRebuildRun (conf : Config) (fw : NftFirewall) (k : Kernel) (nftOk : Bool) : List Child × R Unit × Kernel :=
  match rebuildCmds conf fw with
  | .ok cmds => applyBatchRun conf k cmds nftOk
  | .err => ([], .err, k)
  | .panic => ([], .panic, k)

/-- `/repo/letmeinfwd/src/firewall/nftables.rs:290-316` `NftFirewall::new`; `helpOk`: the test run could be started. -/
def newRun (conf : Config) (k : Kernel) (helpOk nftOk : Bool) : List Child × R NftFirewall × Kernel :=
  if !helpOk then ([helpChild conf], .err, k)
  else
    let fw : NftFirewall := { leases := [], shutdown := false }
    match fullRebuildRun conf fw k nftOk with
    | (cs, .ok _, k') => (helpChild conf :: cs, .ok fw, k')
    | (cs, .err, k') => (helpChild conf :: cs, .err, k')
    | (cs, .panic, k') => (helpChild conf :: cs, .panic, k')

/-- `/repo/letmeinfwd/src/firewall/nftables.rs:395-404` `nftables_add_lease`. -/
def addLeaseRun (conf : Config) (lease : Lease) (k : Kernel) (nftOk : Bool) : List Child × R Unit × Kernel :=
  match genAddLeaseCmds conf lease with
  | .ok cmds => applyBatchRun conf k cmds nftOk
  | .err => ([], .err, k)
  | .panic => ([], .panic, k)

/-- `/repo/letmeinfwd/src/firewall/nftables.rs:407-424` `nftables_remove_leases`. -/
def removeLeasesRun (conf : Config) (leases : List Lease) (k : Kernel) (env : NftEnv) : List Child × R Unit × Kernel :=
  if leases.isEmpty then ([], .ok (), k)
  else if !env.listOk then ([listChild conf], .err, k)
  else
    let k' := env.afterList k
    match collect (genDeleteLeaseCmds conf k.rules) leases with
    | .ok cmds =>
      let r := applyBatchRun conf k' cmds.flatten env.deleteOk
      (listChild conf :: r.1, r.2)
    | .err => ([listChild conf], .err, k')
    | .panic => ([listChild conf], .panic, k')

/-- `/repo/letmeinfwd/src/firewall/nftables.rs:429-436` `shutdown`. -/
def doShutdownRun (conf : Config) (fw : NftFirewall) (k : Kernel) (nftOk : Bool) : List Child × R Unit × NftFirewall × Kernel :=
  if fw.shutdown then ([], .panic, fw, k)
  else
    let fw : NftFirewall := { leases := [], shutdown := true }
    let r := fullRebuildRun conf fw k nftOk
    (r.1, r.2.1, fw, r.2.2)

/-- `/repo/letmeinfwd/src/firewall/nftables.rs:440-452` `maintain`. -/
def maintainRun (conf : Config) (fw : NftFirewall) (k : Kernel) (now : Nat) (env : NftEnv) : List Child × R Unit × NftFirewall × Kernel :=
  if fw.shutdown then ([], .panic, fw, k)
  else
    let p := pruneAllLeaseTimeouts now fw.leases
    let fw := { fw with leases := p.1 }
    if p.2.isEmpty then ([], .ok (), fw, k)
    else
      match removeLeasesRun conf p.2 k env with
      | (cs, .ok _, k') => (cs, .ok (), fw, k')
      | (cs, .panic, k') => (cs, .panic, fw, k')
      | (cs, .err, k') =>
        let r := fullRebuildRun conf fw (env.beforeRebuild k') env.rebuildOk
        (cs ++ r.1, r.2.1, fw, r.2.2)

/-- `/repo/letmeinfwd/src/firewall/nftables.rs:459-476` `open_port`. -/
def openPortRun (conf : Config) (fw : NftFirewall) (k : Kernel) (now : Nat) (addr : IpAddr) (port : LeasePort) (nftOk : Bool) :
    List Child × R Unit × NftFirewall × Kernel :=
  if fw.shutdown then ([], .panic, fw, k)
  else
    let id : LeaseId := (addr, port)
    if fw.leases.any (fun e => e.1 = id) then
      ([], .ok (), { fw with leases := leaseUpdate fw.leases id (fun l => l.refreshTimeout conf now) }, k)
    else
      match Lease.new conf now addr port with
      | .ok lease =>
        match addLeaseRun conf lease k nftOk with
        | (cs, .ok _, k') => (cs, .ok (), { fw with leases := fw.leases ++ [(id, lease)] }, k')
        | (cs, .err, k') => (cs, .err, fw, k')
        | (cs, .panic, k') => (cs, .panic, fw, k')
      | .err => ([], .err, fw, k)
      | .panic => ([], .panic, fw, k)

/-- `/repo/letmeinfwd/src/server.rs:76-144` `handle_message`. -/
def handleMessageRun (conf : Config) (fw : NftFirewall) (k : Kernel) (rx : FwRecvOut) (now : Nat) (nftOk : Bool) :
    List Child × R Unit × Option FwMessage × NftFirewall × Kernel :=
  match fwdDecide conf rx with
  | .silent => ([], .err, none, fw, k)
  | .nack => ([], .err, some FwMessage.newNack, fw, k)
  | .openPort addr port =>
    match openPortRun conf fw k now addr port nftOk with
    | (cs, .ok _, fw', k') => (cs, .ok (), some FwMessage.newAck, fw', k')
    | (cs, .err, fw', k') => (cs, .ok (), some FwMessage.newNack, fw', k')
    | (cs, .panic, fw', k') => (cs, .panic, none, fw', k')

/-- `/repo/letmeinfwd/src/main.rs:215-304` one operation of the daemon. -/
def stepRun (conf : Config) (s : FwdState) : FwdOp → List Child × Option FwMessage × FwdState
  | .foreign k => ([], none, { s with kernel := k })
  | .reorder l => ([], none, { s with fw := { s.fw with leases := l } })
  | .terminate nftOk =>
    match s.phase with
    | .stopped | .crashed => ([], none, s)
    | .running | .stopping =>
      match doShutdownRun conf s.fw s.kernel nftOk with
      | (cs, .panic, fw, k) => (cs, none, { phase := .crashed, fw, kernel := k })
      | (cs, _, fw, k) => (cs, none, { phase := .stopped, fw, kernel := k })
  | .request rx now nftOk =>
    match s.phase with
    | .crashed | .stopped => ([], none, s)
    | .running | .stopping =>
      match handleMessageRun conf s.fw s.kernel rx now nftOk with
      | (cs, .panic, _, fw, k) => (cs, none, { phase := .crashed, fw, kernel := k })
      | (cs, _, reply, fw, k) => (cs, reply, { s with fw, kernel := k })
  | .maintain now env =>
    match s.phase with
    | .crashed | .stopped | .stopping => ([], none, s)
    | .running =>
      match maintainRun conf s.fw s.kernel now env with
      | (cs, .ok _, fw, k) => (cs, none, { s with fw, kernel := k })
      | (cs, .err, fw, k) => (cs, none, { phase := .stopping, fw, kernel := k })
      | (cs, .panic, fw, k) => (cs, none, { phase := .crashed, fw, kernel := k })

/-- `/repo/letmeinfwd/src/main.rs:191-192` start: `none` if initialization fails. -/
def startRun (conf : Config) (k : Kernel) (helpOk nftOk : Bool) : List Child × Option FwdState :=
  match newRun conf k helpOk nftOk with
  | (cs, .ok fw, k) => (cs, some { phase := .running, fw, kernel := k })
  | (cs, _, _) => (cs, none)

/-- `/repo/letmeinfwd/src/main.rs:215-304` the children of a history. -/
def childrenRun (conf : Config) (s : FwdState) : List FwdOp → List Child × FwdState
  | [] => ([], s)
  | op :: rest =>
    let r := stepRun conf s op
    let q := childrenRun conf r.2.2 rest
    (r.1 ++ q.1, q.2)

/-! ### From the name of a program to the file -/

/-- `execvp(3)`, which `Command` of `/repo/letmeinfwd/src/firewall/nftables.rs:292` and of the crate `nftables` comes down to: the files that are tried, in order. A
name with a slash is a path; others are looked for in the directories of `$PATH` (an empty one is the working directory; `/bin:/usr/bin` without the variable).
An empty name and one with a NUL are errors. -/
def execTries (path : Option Str) (exe : Str) : List Str :=
  if exe = [] ∨ '\x00' ∈ exe then []
  else if '/' ∈ exe then [exe]
  else (splitOn ':' (path.getD "/bin:/usr/bin".toList)).map fun d => if d = [] then exe else d ++ '/' :: exe

/-- `execvp(3)`, see `/repo/letmeinfwd/src/firewall/nftables.rs:292`: the file that runs, the first one that can be run. -/
def execFile (runnable : Str → Bool) (path : Option Str) (exe : Str) : Option Str := (execTries path exe).find? runnable

end Letmein
