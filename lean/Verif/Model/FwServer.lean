import Verif.Model.Firewall
import Verif.Model.Prog

/-!
# letmeinfwd: requests and the daemon's life

Models `/repo/letmeinfwd/src/server.rs:44-145` and the tasks of `/repo/letmeinfwd/src/main.rs:178-304`.
Each operation under the mutex is one step (C83 proves from the tasks that this loses nothing); the interleaving of operations is arbitrary.
-/

namespace Letmein

/-- `/repo/letmeinfwd/src/server.rs:45-56` `addr_check`. -/
def addrCheck : IpAddr → Bool
  | .v4 a => a ≠ Arr.replicate 4 0 && a ≠ Arr.replicate 4 0xFF
  | .v6 a => a ≠ Arr.replicate 16 0 && a ≠ Arr.replicate 16 0xFF

/-- What `handle_message` does with a received message before it touches the firewall. -/
inductive FwdDecision where
  /-- return an error without answering -/
  | silent
  /-- answer Nack and return an error -/
  | nack
  /-- call `open_port` -/
  | openPort (addr : IpAddr) (port : LeasePort)
  deriving DecidableEq

/-- `/repo/letmeinfwd/src/server.rs:81-128,139-141` the checks of `handle_message`. -/
def fwdDecide (conf : Config) (rx : FwRecvOut) : FwdDecision :=
  match rx with
  | .fail => .silent
  | .disconnected => .silent
  | .msg m =>
    match m.operation with
    | .Open =>
      match m.getAddr with
      | none => .nack
      | some addr =>
        if !addrCheck addr then .nack
        else match m.getPort with
          | none => .nack
          | some (portType, port) =>
            if (conf.resourceIdByPort port none).isNone then .nack
            else if port = conf.port.port then .nack
            else match portType with
              | .Tcp => .openPort addr (.Tcp port)
              | .Udp => .openPort addr (.Udp port)
              | .TcpUdp => .openPort addr (.TcpUdp port)
    | .Ack | .Nack => .silent

/-- `/repo/letmeinfwd/src/server.rs:76-144` `handle_message`: result, answer, new state. A failing send of the answer has
no effect on the firewall and is not modelled. -/
def handleMessage (conf : Config) (fw : NftFirewall) (k : Kernel) (rx : FwRecvOut) (now : Nat) (nftOk : Bool) :
    R Unit × Option FwMessage × NftFirewall × Kernel :=
  match fwdDecide conf rx with
  | .silent => (.err, none, fw, k)
  | .nack => (.err, some FwMessage.newNack, fw, k)
  | .openPort addr port =>
    match fw.openPort conf k now addr port nftOk with
    | (.ok _, fw', k') => (.ok (), some FwMessage.newAck, fw', k')
    | (.err, fw', k') => (.ok (), some FwMessage.newNack, fw', k')
    | (.panic, fw', k') => (.panic, none, fw', k')

/-- What can happen to the daemon. Other programs may change the ruleset (`foreign`), and the
iteration order of the lease map is arbitrary (`reorder`). -/
inductive FwdOp where
  /-- a connection delivers a message -/
  | request (rx : FwRecvOut) (now : Nat) (nftOk : Bool)
  /-- `/repo/letmeinfwd/src/main.rs:253-260` one tick of the maintenance task -/
  | maintain (now : Nat) (env : NftEnv)
  /-- the main task leaves its loop (SIGTERM, SIGINT, a failed accept or failed maintenance) and shuts the firewall down:
  `/repo/letmeinfwd/src/main.rs:265-301` -/
  | terminate (nftOk : Bool)
  | foreign (k : Kernel)
  | reorder (leases : LeaseMap)

/-- Phases of the daemon's life. -/
inductive FwdPhase where
  | running
  /-- maintenance failed and its task has ended (`/repo/letmeinfwd/src/main.rs:256-259`); the main task is about to shut down -/
  | stopping
  /-- the firewall has been shut down and `async_main` returns without waiting for anything further
  (`/repo/letmeinfwd/src/main.rs:291-303`). The runtime is single threaded (`/repo/letmeinfwd/src/main.rs:314-320`), so no other
  task runs any more: tasks of a tokio `current_thread` runtime make progress inside `block_on` only. -/
  | stopped
  /-- a panic aborted the process (`/repo/Cargo.toml` `panic = "abort"`) -/
  | crashed
  deriving DecidableEq, Repr

/-- The daemon and the kernel's ruleset. -/
structure FwdState where
  phase : FwdPhase
  fw : NftFirewall
  kernel : Kernel

/-- One operation: the answer given on the request's connection, if any, and the new state. -/
def fwdStep (conf : Config) (s : FwdState) : FwdOp → Option FwMessage × FwdState
  | .foreign k => (none, { s with kernel := k })
  | .reorder l => (none, { s with fw := { s.fw with leases := l } })
  | .terminate nftOk =>
    match s.phase with
    | .stopped | .crashed => (none, s)
    | .running | .stopping =>
      match s.fw.doShutdown conf s.kernel nftOk with
      | (.panic, fw, k) => (none, { phase := .crashed, fw, kernel := k })
      | (_, fw, k) => (none, { phase := .stopped, fw, kernel := k })
  | .request rx now nftOk =>
    match s.phase with
    | .crashed | .stopped => (none, s)
    | .running | .stopping =>
      match handleMessage conf s.fw s.kernel rx now nftOk with
      | (.panic, _, fw, k) => (none, { phase := .crashed, fw, kernel := k })
      | (_, reply, fw, k) => (reply, { s with fw, kernel := k })
  | .maintain now env =>
    match s.phase with
    | .crashed | .stopped | .stopping => (none, s)
    | .running =>
      match s.fw.maintain conf s.kernel now env with
      | (.ok _, fw, k) => (none, { s with fw, kernel := k })
      | (.err, fw, k) => (none, { phase := .stopping, fw, kernel := k })
      | (.panic, fw, k) => (none, { phase := .crashed, fw, kernel := k })

/-- `/repo/letmeinfwd/src/main.rs:191-192` start: `none` if initialization fails. -/
def fwdStart (conf : Config) (k : Kernel) (nftOk : Bool) : Option FwdState :=
  match NftFirewall.new conf k nftOk with
  | (.ok fw, k) => some { phase := .running, fw, kernel := k }
  | _ => none

/-- A history: the operations with the answers, in order, and the state reached. -/
def fwdRun (conf : Config) (s : FwdState) : List FwdOp → List (FwdOp × Option FwMessage) × FwdState
  | [] => ([], s)
  | op :: rest =>
    let r := fwdStep conf s op
    let q := fwdRun conf r.2 rest
    ((op, r.1) :: q.1, q.2)

end Letmein
