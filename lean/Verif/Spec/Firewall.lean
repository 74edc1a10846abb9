import Verif.Model.FwServer
import Verif.Spec.Ip

/-!
# Specification of the firewall daemon

What a packet filter chain does with packets, and what letmeinfwd is supposed to keep open, as an abstract table of
grants computed from the history of requests and answers alone.
-/

namespace Letmein.Spec

/-- Transport protocols. -/
inductive L4 where
  | tcp | udp
  deriving DecidableEq, Repr

/-- A packet arriving at the host. `src` is `.v4` for an IPv4 packet and `.v6` for an IPv6 packet. -/
structure Packet where
  src : IpAddr
  proto : L4
  dport : UInt16
  deriving DecidableEq

/-- Name of the transport protocol in nft. -/
def L4.name : L4 → Str
  | .tcp => "tcp".toList
  | .udp => "udp".toList

/-- Does the statement let the packet pass on to the next statement? An address literal matches the address it
denotes (RFC 4291). `ip` expressions match IPv4 packets only, `ip6` expressions IPv6 packets only. -/
def stmtHolds (pkt : Packet) : Stmt → Bool
  | .matchSaddr protocol text =>
    match pkt.src with
    | .v4 a => protocol = "ip".toList && readIpv4 text = some a
    | .v6 a => protocol = "ip6".toList && readIpv6 text = some a
  | .matchDport protocol port => protocol = pkt.proto.name && port = pkt.dport.toNat
  | .accept => true

/-- Does a rule accept the packet? Statements are evaluated left to right until one does not match; `accept` ends it. -/
def ruleAccepts (pkt : Packet) : List Stmt → Bool
  | [] => false
  | .accept :: _ => true
  | s :: rest => stmtHolds pkt s && ruleAccepts pkt rest

/-- Which packets does a chain of this family see? -/
def familySees : NfFamily → IpAddr → Bool
  | .INet, _ => true
  | .IP, .v4 _ => true
  | .IP6, .v6 _ => true
  | _, _ => false

/-- The rule is in the configured chain. -/
def Own (n : NftNames) (r : KRule) : Prop := r.family = n.family ∧ r.table = n.table ∧ r.chain = n.chainInput

instance (n : NftNames) : DecidablePred (Own n) := fun _ => inferInstanceAs (Decidable (_ ∧ _))

/-- The rules of the configured chain, in order. -/
def ownRules (n : NftNames) (k : Kernel) : List KRule := k.rules.filter (fun r => Own n r)

/-- All rules of other chains, in order. -/
def foreignRules (n : NftNames) (k : Kernel) : List KRule :=
  k.rules.filter (fun r => ¬ Own n r)

/-- Does the chain accept the packet? (There are only accept rules in it.) -/
def chainAccepts (n : NftNames) (k : Kernel) (pkt : Packet) : Bool :=
  familySees n.family pkt.src && (ownRules n k).any (fun r => ruleAccepts pkt r.expr)

/-- Spelling of the family in the configuration. -/
def familyName : NfFamily → Str
  | .INet => "inet".toList
  | .IP => "ip".toList
  | .IP6 => "ip6".toList

/-- `n` is the chain named by the configuration. -/
structure ChainOf (conf : Config) (n : NftNames) : Prop where
  family : conf.nftFamily = familyName n.family
  table : conf.nftTable = n.table
  chain : conf.nftChainInput = n.chainInput
  tableNonempty : n.table ≠ []
  chainNonempty : n.chainInput ≠ []

/-- The host an address denotes: `::ffff:a.b.c.d` is the IPv4 host `a.b.c.d`. -/
def hostOf : IpAddr → IpAddr
  | .v4 a => .v4 a
  | .v6 a =>
    if h : a.val.take 12 = [0, 0, 0, 0, 0, 0, 0, 0, 0, 0, 0xFF, 0xFF] then
      .v4 ⟨a.val.drop 12, by simp [a.property]⟩
    else .v6 a

/-- Does the port selection include the packet's protocol and port? -/
def portCovers (p : LeasePort) (pkt : Packet) : Prop :=
  match p with
  | .Tcp port => pkt.proto = .tcp ∧ pkt.dport = port
  | .Udp port => pkt.proto = .udp ∧ pkt.dport = port
  | .TcpUdp port => pkt.dport = port

/-- The packet comes from the address and goes to the port. -/
def covers (addr : IpAddr) (p : LeasePort) (pkt : Packet) : Prop := hostOf addr = pkt.src ∧ portCovers p pkt

/-- The packet goes to an enabled control port. -/
def toControlPort (conf : Config) (pkt : Packet) : Prop :=
  pkt.dport = conf.port.port ∧ ((pkt.proto = .tcp ∧ conf.port.tcp = true) ∨ (pkt.proto = .udp ∧ conf.port.udp = true))

/-! ### Grants -/

/-- Port selection of a request. -/
def selection (t : PortType) (port : UInt16) : LeasePort :=
  match t with
  | .Tcp => .Tcp port
  | .Udp => .Udp port
  | .TcpUdp => .TcpUdp port

/-- The grant made when a message is answered with Ack at time `now`. -/
def granted (op : FwdOp) (reply : Option FwMessage) : Option (IpAddr × LeasePort × Nat) :=
  match op, reply with
  | .request (.msg m) now _, some r =>
    if r.operation = .Ack then
      match m.getAddr, m.getPort with
      | some addr, some (t, port) => some (addr, selection t port, now)
      | _, _ => none
    else none
  | _, _ => none

/-- Who may enter until when: address and port selection ↦ expiry. -/
abbrev Grants := IpAddr → LeasePort → Option Nat

/-- One event: an acknowledged request grants for `timeout` from its time on; maintenance drops what has expired. -/
def Grants.step (timeout : Nat) (g : Grants) (op : FwdOp) (reply : Option FwMessage) : Grants :=
  match granted op reply with
  | some (addr, p, now) => fun a q => if a = addr ∧ q = p then some (now + timeout) else g a q
  | none =>
    match op with
    | .maintain now _ => fun a q => match g a q with
      | some e => if now < e then some e else none
      | none => none
    | _ => g

/-- The table after a history. -/
def Grants.after (timeout : Nat) (g : Grants) : List (FwdOp × Option FwMessage) → Grants
  | [] => g
  | (op, reply) :: rest => Grants.after timeout (g.step timeout op reply) rest

/-- Nothing granted. -/
def Grants.none : Grants := fun _ _ => Option.none

/-! ### Other programs -/

/-- Other programs did not touch the chain; they may have changed other chains. -/
structure OwnUnchanged (n : NftNames) (k k' : Kernel) : Prop where
  own : ownRules n k' = ownRules n k
  gen : k.gen ≤ k'.gen

/-- Other programs leave the configured chain alone; reordering the hash map keeps its entries. -/
def OpFair (n : NftNames) (s : FwdState) : FwdOp → Prop
  | .foreign k => OwnUnchanged n s.kernel k
  | .reorder l => l.Perm s.fw.leases
  | .maintain _ env => (∀ k, OwnUnchanged n k (env.afterList k)) ∧ (∀ k, OwnUnchanged n k (env.beforeRebuild k))
  | _ => True

/-- Every operation of the history is fair. -/
def Fair (conf : Config) (n : NftNames) : FwdState → List FwdOp → Prop
  | _, [] => True
  | s, op :: rest => OpFair n s op ∧ Fair conf n (fwdStep conf s op).2 rest

/-- The time of an operation that reads the clock. -/
def FwdOp.time : FwdOp → Option Nat
  | .request _ now _ => some now
  | .maintain now _ => some now
  | _ => Option.none

/-- Times do not go backwards. -/
def Chronological (ops : List FwdOp) : Prop := (ops.filterMap FwdOp.time).Pairwise (· ≤ ·)

end Letmein.Spec
