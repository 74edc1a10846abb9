import Verif.Model.Text

/-!
# letmeinfwd: leases and nftables

Models `/repo/letmeinfwd/src/firewall.rs` and `/repo/letmeinfwd/src/firewall/nftables.rs`.

The kernel's ruleset is explicit. An `nft` run is a batch of commands that is applied completely or not at all; that it
fails for whatever reason (no nft binary, missing chain, no permission, ...) is an input of each operation.
Printing and the rule counter that is only printed (`num_ctrl_rules`) are not modelled.
-/

namespace Letmein

/-- `/repo/letmeinfwd/src/firewall.rs:17-24` `LeasePort`. -/
inductive LeasePort where
  | Tcp (port : UInt16)
  | Udp (port : UInt16)
  | TcpUdp (port : UInt16)
  deriving DecidableEq

/-- `/repo/letmeinfwd/src/firewall.rs:67-72` the port number of a `LeasePort`. -/
def LeasePort.port : LeasePort → UInt16
  | .Tcp p => p
  | .Udp p => p
  | .TcpUdp p => p

/-- `/repo/letmeinfwd/src/firewall.rs:37-43` `SingleLeasePort`. -/
inductive SinglePort where
  | Tcp (port : UInt16)
  | Udp (port : UInt16)
  deriving DecidableEq

/-- `/repo/letmeinfwd/src/firewall.rs:45-52` `Display` of `SingleLeasePort`. -/
def SinglePort.show : SinglePort → Str
  | .Tcp p => showNat p.toNat ++ "/TCP".toList
  | .Udp p => showNat p.toNat ++ "/UDP".toList

/-- `/repo/letmeinfwd/src/firewall.rs:55-60` `Lease`. -/
structure Lease where
  addr : IpAddr
  port : LeasePort
  timeout : Nat
  deriving DecidableEq

/-- `/repo/letmeinfwd/src/firewall.rs:64-80` `Lease::new`; `now` is `Instant::now()`.
`Instant + Duration` is not bounded here (the largest timeout is `u32::MAX` seconds, `Instant` has 64 bits of seconds). -/
def Lease.new (conf : Config) (now : Nat) (addr : IpAddr) (port : LeasePort) : R Lease := do
  rassert (conf.port.port ≠ port.port)
  .ok { addr, port, timeout := now + conf.nftTimeout }

/-- `/repo/letmeinfwd/src/firewall.rs:82-85` `refresh_timeout`. -/
def Lease.refreshTimeout (l : Lease) (conf : Config) (now : Nat) : Lease := { l with timeout := now + conf.nftTimeout }

/-- `/repo/letmeinfwd/src/firewall.rs:87-90` `is_timed_out`. -/
def Lease.isTimedOut (l : Lease) (now : Nat) : Bool := now ≥ l.timeout

/-- `/repo/letmeinfwd/src/firewall.rs:109-110` `LeaseId`. -/
abbrev LeaseId := IpAddr × LeasePort

/-- `/repo/letmeinfwd/src/firewall.rs:112-113` `LeaseMap`: a `HashMap` as the list of its entries in iteration order. -/
abbrev LeaseMap := List (LeaseId × Lease)

/-- `/repo/letmeinfwd/src/firewall.rs:120-134` `prune_all_lease_timeouts`: (remaining leases, pruned leases). -/
def pruneAllLeaseTimeouts (now : Nat) (leases : LeaseMap) : LeaseMap × List Lease :=
  (leases.filter (fun e => !e.2.isTimedOut now), (leases.filter (fun e => e.2.isTimedOut now)).map (·.2))

/-! ### nftables objects -/

/-- `nftables::types::NfFamily` (the three that can be configured). -/
inductive NfFamily where
  | INet | IP | IP6
  deriving DecidableEq, Repr

/-- `/repo/letmeinfwd/src/firewall/nftables.rs:25-29` `NftNames`. -/
structure NftNames where
  family : NfFamily
  table : Str
  chainInput : Str
  deriving DecidableEq

/-- `/repo/letmeinfwd/src/firewall/nftables.rs:32-58` `NftNames::get`. -/
def NftNames.get (conf : Config) : R NftNames := do
  let family ←
    if conf.nftFamily = "inet".toList then .ok NfFamily.INet
    else if conf.nftFamily = "ip".toList then .ok .IP
    else if conf.nftFamily = "ip6".toList then .ok .IP6
    else .err
  rensure (conf.nftTable ≠ [])
  rensure (conf.nftChainInput ≠ [])
  .ok { family, table := conf.nftTable, chainInput := conf.nftChainInput }

/-- The statements letmeinfwd generates (`nftables::stmt::Statement`). Protocol names and address literals are text, as
in the JSON given to `nft`. -/
inductive Stmt where
  /-- payload `protocol saddr == addr` -/
  | matchSaddr (protocol : Str) (addr : Str)
  /-- payload `protocol dport == port` -/
  | matchDport (protocol : Str) (port : Nat)
  | accept
  deriving DecidableEq

/-- `/repo/letmeinfwd/src/firewall/nftables.rs:62-98` `statement_match_saddr`. -/
def statementMatchSaddr (family : NfFamily) (addr : IpAddr) : R Stmt := do
  let (protocol, text) ←
    match addr with
    | .v4 a =>
      match family with
      | .INet | .IP => .ok ("ip".toList, showIpv4 a)
      | _ => .err
    | .v6 a =>
      match toIpv4Mapped a with
      | some a4 =>
        match family with
        | .INet | .IP => .ok ("ip".toList, showIpv4 a4)
        | _ => .err
      | none =>
        match family with
        | .INet | .IP6 => .ok ("ip6".toList, showIpv6 a)
        | _ => .err
  .ok (.matchSaddr protocol text)

/-- `/repo/letmeinfwd/src/firewall/nftables.rs:101-116` `statement_match_dport`. -/
def statementMatchDport : SinglePort → Stmt
  | .Tcp p => .matchDport "tcp".toList p.toNat
  | .Udp p => .matchDport "udp".toList p.toNat

/-- `/repo/letmeinfwd/src/firewall/nftables.rs:125-134` `gen_rule_comment`. -/
def genRuleComment (addr : Option IpAddr) (port : SinglePort) : Str :=
  (match addr with
    | some a => showIp a ++ "/".toList
    | none => "any/".toList) ++ port.show ++ "/accept/letmein/GENERATED".toList

/-- A rule to be added (`nftables::schema::Rule` without handle). -/
structure NewRule where
  family : NfFamily
  table : Str
  chain : Str
  expr : List Stmt
  comment : Option Str
  deriving DecidableEq

/-- The commands letmeinfwd uses (`nftables::schema::NfCmd`). -/
inductive NfCmd where
  | add (rule : NewRule)
  | delete (family : NfFamily) (table chain : Str) (handle : Nat)
  | flush (family : NfFamily) (table chain : Str)
  deriving DecidableEq

/-- `/repo/letmeinfwd/src/firewall/nftables.rs:138-159` `gen_add_lease_cmd`. -/
def genAddLeaseCmd (conf : Config) (addr : Option IpAddr) (port : SinglePort) : R NfCmd := do
  let names ← NftNames.get conf
  let saddr ←
    match addr with
    | some a => do
      let s ← statementMatchSaddr names.family a
      .ok [s]
    | none => .ok []
  .ok (.add { family := names.family, table := names.table, chain := names.chainInput,
              expr := saddr ++ [statementMatchDport port, .accept], comment := some (genRuleComment addr port) })

/-- `/repo/letmeinfwd/src/firewall/nftables.rs:166-177,259-272` the single ports of a lease port, in order. -/
def LeasePort.singles : LeasePort → List SinglePort
  | .Tcp p => [.Tcp p]
  | .Udp p => [.Udp p]
  | .TcpUdp p => [.Tcp p, .Udp p]

/-- Run `f` on each element, stop at the first error (`?` in a loop). -/
def collect {α β : Type} (f : α → R β) : List α → R (List β)
  | [] => .ok []
  | a :: rest => do
    let b ← f a
    let bs ← collect f rest
    .ok (b :: bs)

/-- `/repo/letmeinfwd/src/firewall/nftables.rs:163-182` `gen_add_lease_cmds`. -/
def genAddLeaseCmds (conf : Config) (lease : Lease) : R (List NfCmd) :=
  collect (fun p => genAddLeaseCmd conf (some lease.addr) p) lease.port.singles

/-! ### The kernel -/

/-- A rule in the kernel. -/
structure KRule where
  family : NfFamily
  table : Str
  chain : Str
  handle : Nat
  expr : List Stmt
  comment : Option Str
  deriving DecidableEq

/-- The kernel's ruleset, in order, and its handle generator (Linux counts handles up per table; one counter here). -/
structure Kernel where
  rules : List KRule
  gen : Nat

/-- Is the rule in this chain? -/
def KRule.inChain (r : KRule) (family : NfFamily) (table chain : Str) : Bool :=
  r.family = family && r.table = table && r.chain = chain

/-- The effect of one command (nftables documentation: `add rule` appends, `delete rule` needs an existing handle in the
chain, `flush chain` removes the chain's rules). -/
def applyCmd (k : Kernel) : NfCmd → Option Kernel
  | .add r => some { rules := k.rules ++ [{ family := r.family, table := r.table, chain := r.chain, handle := k.gen + 1,
                                            expr := r.expr, comment := r.comment }], gen := k.gen + 1 }
  | .delete family table chain handle =>
    if k.rules.any (fun r => r.inChain family table chain && r.handle = handle) then
      some { k with rules := k.rules.filter (fun r => !(r.inChain family table chain && r.handle = handle)) }
    else none
  | .flush family table chain => some { k with rules := k.rules.filter (fun r => !r.inChain family table chain) }

/-- The effect of a batch. -/
def applyCmds (k : Kernel) : List NfCmd → Option Kernel
  | [] => some k
  | c :: cs =>
    match applyCmd k c with
    | some k' => applyCmds k' cs
    | none => none

/-- `/repo/letmeinfwd/src/firewall/nftables.rs:332-343` `nftables_apply_batch`: all or nothing; `nftOk = false`: the run
of `nft` fails for some other reason. -/
def applyBatch (k : Kernel) (cmds : List NfCmd) (nftOk : Bool) : R Unit × Kernel :=
  if nftOk then
    match applyCmds k cmds with
    | some k' => (.ok (), k')
    | none => (.err, k)
  else (.err, k)

/-! ### The firewall object -/

/-- `/repo/letmeinfwd/src/firewall/nftables.rs:281-285` `NftFirewall`. -/
structure NftFirewall where
  leases : LeaseMap
  shutdown : Bool
  deriving DecidableEq

/-- `/repo/letmeinfwd/src/firewall/nftables.rs:362-377` the control-port commands. -/
def genCtrlCmds (conf : Config) : R (List NfCmd) := do
  let tcp ← if conf.port.tcp then collect (genAddLeaseCmd conf none) [.Tcp conf.port.port] else .ok []
  let udp ← if conf.port.udp then collect (genAddLeaseCmd conf none) [.Udp conf.port.port] else .ok []
  .ok (tcp ++ udp)

/-- `/repo/letmeinfwd/src/firewall/nftables.rs:346-387` the batch of `nftables_full_rebuild`. -/
def rebuildCmds (conf : Config) (fw : NftFirewall) : R (List NfCmd) := do
  let names ← NftNames.get conf
  let flush := NfCmd.flush names.family names.table names.chainInput
  if !fw.shutdown then
    let ctrl ← genCtrlCmds conf
    let leases ← collect (fun e : LeaseId × Lease => genAddLeaseCmds conf e.2) fw.leases
    .ok (flush :: (ctrl ++ leases.flatten))
  else .ok [flush]

/-- `/repo/letmeinfwd/src/firewall/nftables.rs:346-392` `nftables_full_rebuild`. -/
def fullRebuild (conf : Config) (fw : NftFirewall) (k : Kernel) (nftOk : Bool) : R Unit × Kernel :=
  match rebuildCmds conf fw with
  | .ok cmds => applyBatch k cmds nftOk
  | .err => (.err, k)
  | .panic => (.panic, k)

/-- `/repo/letmeinfwd/src/firewall/nftables.rs:290-316` `NftFirewall::new` (the test run of `nft --help` is part of `nftOk`). -/
def NftFirewall.new (conf : Config) (k : Kernel) (nftOk : Bool) : R NftFirewall × Kernel :=
  let fw : NftFirewall := { leases := [], shutdown := false }
  match fullRebuild conf fw k nftOk with
  | (.ok _, k') => (.ok fw, k')
  | (.err, k') => (.err, k')
  | (.panic, k') => (.panic, k')

/-- `/repo/letmeinfwd/src/firewall/nftables.rs:395-404` `nftables_add_lease`. -/
def addLease (conf : Config) (lease : Lease) (k : Kernel) (nftOk : Bool) : R Unit × Kernel :=
  match genAddLeaseCmds conf lease with
  | .ok cmds => applyBatch k cmds nftOk
  | .err => (.err, k)
  | .panic => (.panic, k)

/-- `/repo/letmeinfwd/src/firewall/nftables.rs:203-236` `find_handle` on a listed ruleset. -/
def findHandle (rules : List KRule) (names : NftNames) (addr : IpAddr) (port : SinglePort) : R Nat :=
  match rules.find? (fun r => r.inChain names.family names.table names.chainInput &&
      r.comment = some (genRuleComment (some addr) port)) with
  | some r => .ok r.handle
  | none => .err

/-- `/repo/letmeinfwd/src/firewall/nftables.rs:240-278` `gen_delete_lease_cmds`. -/
def genDeleteLeaseCmds (conf : Config) (rules : List KRule) (lease : Lease) : R (List NfCmd) := do
  let names ← NftNames.get conf
  collect (fun p => do
    let h ← findHandle rules names lease.addr p
    .ok (NfCmd.delete names.family names.table names.chainInput h)) lease.port.singles

/-- What happens around the `nft` runs of one maintenance: do listing, deletion and rebuild succeed, and what do other
programs do to the ruleset in between (after listing; before the rebuild)? -/
structure NftEnv where
  listOk : Bool
  deleteOk : Bool
  rebuildOk : Bool
  afterList : Kernel → Kernel
  beforeRebuild : Kernel → Kernel

/-- `/repo/letmeinfwd/src/firewall/nftables.rs:407-424` `nftables_remove_leases`. -/
def removeLeases (conf : Config) (leases : List Lease) (k : Kernel) (env : NftEnv) : R Unit × Kernel :=
  if leases.isEmpty then (.ok (), k)
  else if !env.listOk then (.err, k)
  else
    let k' := env.afterList k
    match collect (genDeleteLeaseCmds conf k.rules) leases with
    | .ok cmds => applyBatch k' cmds.flatten env.deleteOk
    | .err => (.err, k')
    | .panic => (.panic, k')

/-- `/repo/letmeinfwd/src/firewall/nftables.rs:429-436` `shutdown`. -/
def NftFirewall.doShutdown (conf : Config) (fw : NftFirewall) (k : Kernel) (nftOk : Bool) : R Unit × NftFirewall × Kernel :=
  if fw.shutdown then (.panic, fw, k)
  else
    let fw : NftFirewall := { leases := [], shutdown := true }
    let r := fullRebuild conf fw k nftOk
    (r.1, fw, r.2)

/-- `/repo/letmeinfwd/src/firewall/nftables.rs:440-452` `maintain`. -/
def NftFirewall.maintain (conf : Config) (fw : NftFirewall) (k : Kernel) (now : Nat) (env : NftEnv) :
    R Unit × NftFirewall × Kernel :=
  if fw.shutdown then (.panic, fw, k)
  else
    let p := pruneAllLeaseTimeouts now fw.leases
    let fw := { fw with leases := p.1 }
    if p.2.isEmpty then (.ok (), fw, k)
    else
      match removeLeases conf p.2 k env with
      | (.ok _, k') => (.ok (), fw, k')
      | (.panic, k') => (.panic, fw, k')
      | (.err, k') =>
        let r := fullRebuild conf fw (env.beforeRebuild k') env.rebuildOk
        (r.1, fw, r.2)

/-- `HashMap::get_mut` + update of an entry. -/
def leaseUpdate (leases : LeaseMap) (id : LeaseId) (f : Lease → Lease) : LeaseMap :=
  leases.map (fun e => if e.1 = id then (e.1, f e.2) else e)

/-- `/repo/letmeinfwd/src/firewall/nftables.rs:459-476` `open_port`. -/
def NftFirewall.openPort (conf : Config) (fw : NftFirewall) (k : Kernel) (now : Nat) (addr : IpAddr) (port : LeasePort)
    (nftOk : Bool) : R Unit × NftFirewall × Kernel :=
  if fw.shutdown then (.panic, fw, k)
  else
    let id : LeaseId := (addr, port)
    if fw.leases.any (fun e => e.1 = id) then
      (.ok (), { fw with leases := leaseUpdate fw.leases id (fun l => l.refreshTimeout conf now) }, k)
    else
      match Lease.new conf now addr port with
      | .ok lease =>
        match addLease conf lease k nftOk with
        | (.ok _, k') => (.ok (), { fw with leases := fw.leases ++ [(id, lease)] }, k')
        | (.err, k') => (.err, fw, k')
        | (.panic, k') => (.panic, fw, k')
      | .err => (.err, fw, k)
      | .panic => (.panic, fw, k)

end Letmein
