import Verif.Model.FwServer

/-!
# letmeinfwd's tasks and the lock around the firewall

`FwServer` takes each operation on the firewall as one step. Here the tasks of `/repo/letmeinfwd/src/main.rs:219-301` are modelled at the granularity of the
runtime: code between two `await`s is one step, and while a task waits for `nft` (which it does holding the lock) the other tasks and other programs go on.
-/

namespace Letmein

/-! ## Operations on the firewall as programs that run `nft` -/

/-- An operation on the firewall: it ends with a result and a new firewall object, or waits for `nft` to list the ruleset (`none`: failed) or to apply a
batch (`false`: failed). -/
inductive LProg where
  | ret (r : R Unit) (fw : NftFirewall)
  | list (k : Option (List KRule) → LProg)
  | apply (cmds : List NfCmd) (k : Bool → LProg)

/-- The result of `nftables_apply_batch(..).await` (`/repo/letmeinfwd/src/firewall/nftables.rs:332-343`). -/
def applied (ok : Bool) : R Unit := if ok then .ok () else .err

/-- `/repo/letmeinfwd/src/firewall/nftables.rs:346-392` `nftables_full_rebuild`, then `k`. -/
def rebuildP (conf : Config) (fw : NftFirewall) (k : R Unit → LProg) : LProg :=
  match rebuildCmds conf fw with
  | .ok cmds => .apply cmds fun ok => k (applied ok)
  | .err => k .err
  | .panic => k .panic

/-- `/repo/letmeinfwd/src/firewall/nftables.rs:395-404` `nftables_add_lease`, then `k`. -/
def addLeaseP (conf : Config) (lease : Lease) (k : R Unit → LProg) : LProg :=
  match genAddLeaseCmds conf lease with
  | .ok cmds => .apply cmds fun ok => k (applied ok)
  | .err => k .err
  | .panic => k .panic

/-- `/repo/letmeinfwd/src/firewall/nftables.rs:407-424` `nftables_remove_leases`, then `k`. -/
def removeLeasesP (conf : Config) (leases : List Lease) (k : R Unit → LProg) : LProg :=
  if leases.isEmpty then k (.ok ())
  else .list fun
    | none => k .err
    | some rules =>
      match collect (genDeleteLeaseCmds conf rules) leases with
      | .ok cmds => .apply cmds.flatten fun ok => k (applied ok)
      | .err => k .err
      | .panic => k .panic

/-- `/repo/letmeinfwd/src/firewall/nftables.rs:429-436` `shutdown`. -/
def shutdownP (conf : Config) (fw : NftFirewall) : LProg :=
  if fw.shutdown then .ret .panic fw
  else
    let fw : NftFirewall := { leases := [], shutdown := true }
    rebuildP conf fw fun r => .ret r fw

/-- `/repo/letmeinfwd/src/firewall/nftables.rs:440-452` `maintain`. -/
def maintainP (conf : Config) (fw : NftFirewall) (now : Nat) : LProg :=
  if fw.shutdown then .ret .panic fw
  else
    let p := pruneAllLeaseTimeouts now fw.leases
    let fw := { fw with leases := p.1 }
    if p.2.isEmpty then .ret (.ok ()) fw
    else removeLeasesP conf p.2 fun
      | .ok _ => .ret (.ok ()) fw
      | .panic => .ret .panic fw
      | .err => rebuildP conf fw fun r => .ret r fw

/-- `/repo/letmeinfwd/src/firewall/nftables.rs:459-476` `open_port`. -/
def openPortP (conf : Config) (fw : NftFirewall) (now : Nat) (addr : IpAddr) (port : LeasePort) : LProg :=
  if fw.shutdown then .ret .panic fw
  else
    let id : LeaseId := (addr, port)
    if fw.leases.any (fun e => e.1 = id) then
      .ret (.ok ()) { fw with leases := leaseUpdate fw.leases id (fun l => l.refreshTimeout conf now) }
    else
      match Lease.new conf now addr port with
      | .ok lease => addLeaseP conf lease fun
        | .ok _ => .ret (.ok ()) { fw with leases := fw.leases ++ [(id, lease)] }
        | .err => .ret .err fw
        | .panic => .ret .panic fw
      | .err => .ret .err fw
      | .panic => .ret .panic fw

/-! ## The tasks -/

/-- The task that has the lock. -/
inductive Who where
  /-- a connection (`/repo/letmeinfwd/src/main.rs:233-237`) -/
  | conn (id : Nat)
  /-- the maintenance (`/repo/letmeinfwd/src/main.rs:250-261`) -/
  | maint
  /-- the main task after its loop (`/repo/letmeinfwd/src/main.rs:291-301`) -/
  | main
  deriving DecidableEq

/-- The owner of the lock, when it got it (it reads the clock then), and what it still has to do. -/
structure Holder where
  who : Who
  since : Nat
  prog : LProg

/-- Where a connection's task is: `/repo/letmeinfwd/src/server.rs:76-144`. -/
inductive ConnPc where
  /-- at `fw.lock().await` -/
  | waiting (addr : IpAddr) (port : LeasePort)
  /-- has the lock -/
  | inside
  /-- has given this answer and ended -/
  | replied (answer : Option FwMessage)

/-- A connection that has delivered a message. -/
structure ConnTask where
  rx : FwRecvOut
  pc : ConnPc

/-- Where the maintenance task or the main task is. -/
inductive TaskPc where
  /-- waits for its tick, or in its loop -/
  | away
  /-- at `fw.lock().await` -/
  | waiting
  /-- has the lock -/
  | inside
  | ended
  deriving DecidableEq

/-- The process and the kernel's ruleset. `fw` is what the mutex guards. -/
structure TSys where
  fw : NftFirewall
  kernel : Kernel
  clock : Nat
  holder : Option Holder
  conns : List ConnTask
  maint : TaskPc
  main : TaskPc
  crashed : Bool

/-- Tasks run: the process has not been aborted, and `block_on` has not returned. -/
def TSys.alive (s : TSys) : Prop := s.crashed = false ∧ s.main ≠ .ended

/-- The program has panicked. -/
def LProg.panics : LProg → Bool
  | .ret .panic _ => true
  | _ => false

/-- `/repo/letmeinfwd/src/server.rs:81-128,139-141` the connection's task up to the lock. -/
def ConnTask.received (conf : Config) (rx : FwRecvOut) : ConnTask :=
  { rx, pc := match fwdDecide conf rx with
      | .silent => .replied none
      | .nack => .replied (some FwMessage.newNack)
      | .openPort addr port => .waiting addr port }

/-- `/repo/letmeinfwd/src/server.rs:131-137` the answer. -/
def answerOf : R Unit → FwMessage
  | .ok _ => FwMessage.newAck
  | _ => FwMessage.newNack

/-- Does `nft` succeed in applying the batch, and the ruleset afterwards. -/
def runNft (k : Kernel) (cmds : List NfCmd) (nftOk : Bool) : Bool × Kernel :=
  match applyBatch k cmds nftOk with
  | (.ok _, k') => (true, k')
  | (_, k') => (false, k')

/-- One step. `P` says what other programs may do to the ruleset. Whoever waits for a free lock may get it. A panic ends the process at once
(also one in a task that continues after `nft` has ended; there are none). -/
inductive TStep (conf : Config) (P : Kernel → Kernel → Prop) : TSys → TSys → Prop where
  /-- time goes on -/
  | tick {s} (t : Nat) : s.clock ≤ t → TStep conf P s { s with clock := t }
  /-- other programs -/
  | foreign {s} (k : Kernel) : P s.kernel k → TStep conf P s { s with kernel := k }
  /-- the order of the hash map -/
  | reorder {s} (l : LeaseMap) : s.alive → s.holder = none → l.Perm s.fw.leases → TStep conf P s { s with fw := { s.fw with leases := l } }
  /-- a connection delivers a message -/
  | message {s} (rx : FwRecvOut) : s.alive → TStep conf P s { s with conns := s.conns ++ [ConnTask.received conf rx] }
  /-- a tick of the maintenance task: `/repo/letmeinfwd/src/main.rs:253` -/
  | maintTick {s} : s.alive → s.maint = .away → TStep conf P s { s with maint := .waiting }
  /-- the main task leaves its loop: `/repo/letmeinfwd/src/main.rs:265-288` -/
  | leave {s} : s.alive → s.main = .away → TStep conf P s { s with main := .waiting }
  /-- a connection gets the lock -/
  | lockConn {s} (id : Nat) {rx addr port} : s.alive → s.holder = none → s.conns[id]? = some ⟨rx, .waiting addr port⟩ →
      TStep conf P s { s with
        conns := s.conns.set id ⟨rx, .inside⟩
        holder := some ⟨.conn id, s.clock, openPortP conf s.fw s.clock addr port⟩
        crashed := (openPortP conf s.fw s.clock addr port).panics }
  /-- the maintenance gets the lock -/
  | lockMaint {s} : s.alive → s.holder = none → s.maint = .waiting →
      TStep conf P s { s with maint := .inside, holder := some ⟨.maint, s.clock, maintainP conf s.fw s.clock⟩, crashed := (maintainP conf s.fw s.clock).panics }
  /-- the main task gets the lock -/
  | lockMain {s} : s.alive → s.holder = none → s.main = .waiting →
      TStep conf P s { s with main := .inside, holder := some ⟨.main, s.clock, shutdownP conf s.fw⟩, crashed := (shutdownP conf s.fw).panics }
  /-- `nft` lists the ruleset -/
  | nftList {s who since k} (ok : Bool) : s.alive → s.holder = some ⟨who, since, .list k⟩ →
      TStep conf P s { s with
        holder := some ⟨who, since, k (if ok then some s.kernel.rules else none)⟩
        crashed := (k (if ok then some s.kernel.rules else none)).panics }
  /-- `nft` applies a batch -/
  | nftApply {s who since cmds k} (ok : Bool) : s.alive → s.holder = some ⟨who, since, .apply cmds k⟩ →
      TStep conf P s { s with
        kernel := (runNft s.kernel cmds ok).2
        holder := some ⟨who, since, k (runNft s.kernel cmds ok).1⟩
        crashed := (k (runNft s.kernel cmds ok).1).panics }
  /-- a connection has opened the port (or failed), releases the lock and answers -/
  | doneConn {s id since r fw rx} : s.alive → s.holder = some ⟨.conn id, since, .ret r fw⟩ → s.conns[id]? = some ⟨rx, .inside⟩ →
      TStep conf P s { s with fw, holder := none, conns := s.conns.set id ⟨rx, .replied (some (answerOf r))⟩ }
  /-- the maintenance is done; if it failed the task ends: `/repo/letmeinfwd/src/main.rs:255-259` -/
  | doneMaint {s since r fw} : s.alive → s.holder = some ⟨.maint, since, .ret r fw⟩ →
      TStep conf P s { s with fw, holder := none, maint := if r = .ok () then .away else .ended }
  /-- the firewall has been shut down: `async_main` returns -/
  | doneMain {s since r fw} : s.alive → s.holder = some ⟨.main, since, .ret r fw⟩ →
      TStep conf P s { s with fw, holder := none, main := .ended }

/-- Any number of steps. -/
inductive TSteps (conf : Config) (P : Kernel → Kernel → Prop) : TSys → TSys → Prop where
  | refl (s) : TSteps conf P s s
  | step {s s' s''} : TSteps conf P s s' → TStep conf P s' s'' → TSteps conf P s s''

/-- The process when its tasks start: `/repo/letmeinfwd/src/main.rs:219`. -/
def TSys.start (f : FwdState) (clock : Nat) : TSys :=
  { fw := f.fw, kernel := f.kernel, clock, holder := none, conns := [], maint := .away, main := .away, crashed := false }

end Letmein
