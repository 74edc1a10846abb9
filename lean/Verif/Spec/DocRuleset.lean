import Verif.Model.DocRuleset
import Verif.Spec.Firewall

/-!
# What becomes of packets in the documented ruleset
-/

namespace Letmein.Spec

/-- IANA protocol numbers. -/
def L4.number : L4 → Nat
  | .tcp => 6
  | .udp => 17

/-- The TCP or UDP packet it is, if any. -/
def flow (pkt : InPacket) : Option Packet :=
  if pkt.l4proto = 6 then some ⟨pkt.src, .tcp, pkt.dport⟩
  else if pkt.l4proto = 17 then some ⟨pkt.src, .udp, pkt.dport⟩
  else none

/-- Does the statement let the packet pass on to the next one? Ports of TCP and UDP match packets of that protocol only. -/
def stmtMatches (pkt : InPacket) : Stmt → Bool
  | .matchSaddr protocol text =>
    match pkt.src with
    | .v4 a => protocol = "ip".toList && readIpv4 text = some a
    | .v6 a => protocol = "ip6".toList && readIpv6 text = some a
  | .matchDport protocol port =>
    ((protocol = "tcp".toList && pkt.l4proto = 6) || (protocol = "udp".toList && pkt.l4proto = 17)) && port = pkt.dport.toNat
  | .accept => true

/-- Does a rule with these statements accept the packet? -/
def stmtsAccept (pkt : InPacket) : List Stmt → Bool
  | [] => false
  | .accept :: _ => true
  | s :: rest => stmtMatches pkt s && stmtsAccept pkt rest

/-- What the chain that letmeinfwd manages says: accept, or return. -/
def ownVerdict (n : NftNames) (k : Kernel) (pkt : InPacket) : Option Verdict :=
  if familySees n.family pkt.src && (ownRules n k).any (fun r => stmtsAccept pkt r.expr) then some .accept else none

/-- What becomes of a packet that arrives: the base chain with policy drop (`/repo/doc/nftables.conf:17`). Other chains are not called. -/
def inputVerdict (n : NftNames) (k : Kernel) (static : List BaseRule) (pkt : InPacket) : Verdict :=
  (walk (fun chain => if chain = n.chainInput then ownVerdict n k pkt else none) pkt (docInput static)).getD .drop

/-- Static rules that say something about the packet themselves; they do not jump. -/
def staticVerdict (static : List BaseRule) (pkt : InPacket) : Option Verdict :=
  (static.find? (fun r => r.conds.all (·.holds pkt) && (match r.act with | .verdict _ => true | .jump _ => false))).bind
    fun r => match r.act with | .verdict v => some v | .jump _ => none

/-- The administrator's rules do not jump to other chains. -/
def NoJumps (static : List BaseRule) : Prop := ∀ r ∈ static, ∃ v, r.act = .verdict v

end Letmein.Spec
