import Verif.Model.Daemon

/-!
# Several runs of letmeinfwd on one host

The ruleset belongs to the kernel and survives the process (`/repo/letmeinfwd/src/firewall/nftables.rs:332-343` only ever
talks to it by `nft`); every run of the daemon has a lease map of its own, which is lost with it
(`/repo/letmeinfwd/src/firewall/nftables.rs:281-285`). Nothing in the code keeps a second daemon from starting while one runs:
the PID-file is overwritten (`/repo/letmeinfwd/src/main.rs:105-114`) and, without systemd, an existing socket is
removed first (`/repo/letmeinfwd/src/server.rs:177-191`).

Simplification: an operation of one process (a request, a tick of the maintenance, a start) is not interleaved
with those of other processes, except that maintenance sees the changes in its `NftEnv`.
-/

namespace Letmein

/-- One run of letmeinfwd: the configuration it has read (`/repo/letmeinfwd/src/main.rs:185-189`), where in its life it is, and its
lease map (`/repo/letmeinfwd/src/firewall/nftables.rs:281-285`). -/
structure FwInstance where
  conf : Config
  phase : FwdPhase
  fw : NftFirewall

/-- All runs so far, in the order in which they started, and the kernel's ruleset. -/
structure FwHost where
  procs : List FwInstance
  kernel : Kernel

/-- What can happen on the host. -/
inductive HostEvent where
  /-- letmeinfwd is started: `/repo/letmeinfwd/src/main.rs:185-192` -/
  | start (conf : Config) (nftOk : Bool)
  /-- an operation of the `i`-th run -/
  | act (i : Nat) (op : FwdOp)
  /-- the `i`-th run is killed (SIGKILL, out of memory) -/
  | kill (i : Nat)
  /-- other programs change the ruleset -/
  | others (k : Kernel)

/-- What becomes visible. -/
inductive HostOut where
  | quiet
  /-- a start that got past the initialization of the firewall -/
  | started
  /-- the answer on the connection of a request -/
  | reply (m : Option FwMessage)

/-- The daemon of a run with the kernel's ruleset. -/
def FwInstance.state (p : FwInstance) (k : Kernel) : FwdState := ⟨p.phase, p.fw, k⟩

/-- One event. A start that fails leaves no process, but what its `nft` did stays: `/repo/letmeinfwd/src/main.rs:191-192`,
`/repo/letmeinfwd/src/firewall/nftables.rs:290-316`. -/
def hostStep (h : FwHost) : HostEvent → HostOut × FwHost
  | .start conf nftOk =>
    match fwdStart conf h.kernel nftOk with
    | some s => (.started, ⟨h.procs ++ [⟨conf, s.phase, s.fw⟩], s.kernel⟩)
    | none => (.quiet, { h with kernel := (NftFirewall.new conf h.kernel nftOk).2 })
  | .act i op =>
    match h.procs[i]? with
    | none => (.quiet, h)
    | some p =>
      let r := fwdStep p.conf (p.state h.kernel) op
      (.reply r.1, ⟨h.procs.set i ⟨p.conf, r.2.phase, r.2.fw⟩, r.2.kernel⟩)
  | .kill i =>
    match h.procs[i]? with
    | none => (.quiet, h)
    | some p => (.quiet, { h with procs := h.procs.set i { p with phase := .crashed } })
  | .others k => (.quiet, { h with kernel := k })

/-- A history. -/
def hostRun (h : FwHost) : List HostEvent → FwHost
  | [] => h
  | e :: rest => hostRun (hostStep h e).2 rest

end Letmein
