import Verif.Model.FwServer

/-!
# The rule count that letmeinfwd prints

Models the field `num_ctrl_rules` and `print_total_rule_count` of `/repo/letmeinfwd/src/firewall/nftables.rs`. The count is printed only; nothing else depends on it,
which is why it is kept apart from `NftFirewall`.
-/

namespace Letmein

/-- `/repo/letmeinfwd/src/firewall/nftables.rs:347,361-380` the field `num_ctrl_rules` (`num` before) after `nftables_full_rebuild`, which leaves it where it is if it fails
on the way. (The field is a `u8`; it is increased twice at most.) -/
def rebuildNum (conf : Config) (fw : NftFirewall) (num : Nat) : Nat :=
  match NftNames.get conf with
  | .ok _ =>
    if !fw.shutdown then
      if conf.port.tcp then
        match genAddLeaseCmd conf none (.Tcp conf.port.port) with
        | .ok _ =>
          if conf.port.udp then
            match genAddLeaseCmd conf none (.Udp conf.port.port) with
            | .ok _ => 0 + 1 + 1
            | _ => 0 + 1
          else 0 + 1
        | _ => 0
      else if conf.port.udp then
        match genAddLeaseCmd conf none (.Udp conf.port.port) with
        | .ok _ => 0 + 1
        | _ => 0
      else 0
    else 0
  | _ => num

/-- `/repo/letmeinfwd/src/firewall/nftables.rs:319-330` `print_total_rule_count`: the number printed, if any. -/
def printTotalRuleCount (conf : Config) (num : Nat) (leases : LeaseMap) : Option Nat :=
  if conf.debug then
    some (leases.foldl (fun count e => count + match e.2.port with
      | .Tcp _ => 1
      | .Udp _ => 1
      | .TcpUdp _ => 2) num)
  else none

/-- `/repo/letmeinfwd/src/firewall/nftables.rs:303-315` `NftFirewall::new`: the number printed and the field, if it succeeds. -/
def startCount (conf : Config) (k : Kernel) (nftOk : Bool) : Option (Option Nat × Nat) :=
  let fw : NftFirewall := { leases := [], shutdown := false }
  match fullRebuild conf fw k nftOk with
  | (.ok _, _) => some (printTotalRuleCount conf (rebuildNum conf fw 0) [], rebuildNum conf fw 0)
  | _ => none

/-- `/repo/letmeinfwd/src/firewall/nftables.rs:429-476` one operation of the daemon: the number printed and the field afterwards. -/
def countStep (conf : Config) (s : FwdState) (num : Nat) (op : FwdOp) : Option Nat × Nat :=
  match op with
  | .foreign _ => (none, num)
  | .reorder _ => (none, num)
  | .terminate nftOk =>
    match s.phase with
    | .stopped | .crashed => (none, num)
    | .running | .stopping =>
      if s.fw.shutdown then (none, num)
      else
        let fw : NftFirewall := { leases := [], shutdown := true }
        match fullRebuild conf fw s.kernel nftOk with
        | (.ok _, _) => (printTotalRuleCount conf (rebuildNum conf fw num) fw.leases, rebuildNum conf fw num)
        | _ => (none, rebuildNum conf fw num)
  | .request rx now nftOk =>
    match s.phase with
    | .crashed | .stopped => (none, num)
    | .running | .stopping =>
      match fwdDecide conf rx with
      | .openPort addr port =>
        if s.fw.leases.any (fun e => e.1 = (addr, port)) then (none, num)
        else match s.fw.openPort conf s.kernel now addr port nftOk with
          | (.ok _, fw, _) => (printTotalRuleCount conf num fw.leases, num)
          | _ => (none, num)
      | _ => (none, num)
  | .maintain now env =>
    match s.phase with
    | .crashed | .stopped | .stopping => (none, num)
    | .running =>
      if s.fw.shutdown then (none, num)
      else
        let p := pruneAllLeaseTimeouts now s.fw.leases
        let fw := { s.fw with leases := p.1 }
        if p.2.isEmpty then (none, num)
        else match removeLeases conf p.2 s.kernel env with
          | (.ok _, _) => (printTotalRuleCount conf num fw.leases, num)
          | (.panic, _) => (none, num)
          | (.err, k) =>
            match fullRebuild conf fw (env.beforeRebuild k) env.rebuildOk with
            | (.ok _, _) => (printTotalRuleCount conf (rebuildNum conf fw num) fw.leases, rebuildNum conf fw num)
            | _ => (none, rebuildNum conf fw num)

/-- The field after a history. -/
def countRun (conf : Config) (s : FwdState) (num : Nat) : List FwdOp → Nat
  | [] => num
  | op :: rest => countRun conf (fwdStep conf s op).2 (countStep conf s num op).2 rest

end Letmein
