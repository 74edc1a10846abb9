import Verif.Model.Firewall

/-!
# The documented ruleset

`/repo/doc/nftables.conf` is the ruleset letmein is documented to be used with: its base chain jumps to the chain that letmeinfwd manages. Modelled here are the
base chain of incoming packets and how netfilter walks through it (nftables documentation: rules in order; a rule whose conditions all hold has its verdict;
a called chain that reaches no verdict returns; at the end the chain's policy).
-/

namespace Letmein

/-- Connection tracking state of a packet. -/
inductive CtState where
  | new | established | related | invalid | untracked
  deriving DecidableEq, Repr

/-- A packet arriving at the host: address, input interface, connection tracking state, protocol number, and destination port (for TCP and UDP). -/
structure InPacket where
  src : IpAddr
  iif : Str
  ct : CtState
  l4proto : Nat
  dport : UInt16
  deriving DecidableEq

/-- Conditions of rules in `/repo/doc/nftables.conf:19-31`. -/
inductive Cond where
  | iifname (name : Str)
  | ctState (states : List CtState)
  | metaL4proto (number : Nat)
  deriving DecidableEq

/-- What becomes of a packet. -/
inductive Verdict where
  | accept | drop | reject
  deriving DecidableEq, Repr

/-- What a rule does. -/
inductive RuleAct where
  | verdict (v : Verdict)
  | jump (chain : Str)
  deriving DecidableEq

/-- A rule of the base chain. -/
structure BaseRule where
  conds : List Cond
  act : RuleAct
  deriving DecidableEq

/-- Does the condition hold? -/
def Cond.holds (pkt : InPacket) : Cond → Bool
  | .iifname name => pkt.iif = name
  | .ctState states => pkt.ct ∈ states
  | .metaL4proto number => pkt.l4proto = number

/-- Walk through rules; `call` is what a called chain says. -/
def walk (call : Str → Option Verdict) (pkt : InPacket) : List BaseRule → Option Verdict
  | [] => none
  | r :: rest =>
    if r.conds.all (·.holds pkt) then
      match r.act with
      | .verdict v => some v
      | .jump chain =>
        match call chain with
        | some v => some v
        | none => walk call pkt rest
    else walk call pkt rest

/-- `/repo/doc/nftables.conf:19-24` before the static rules. -/
def docBefore : List BaseRule :=
  [⟨[.iifname "lo".toList], .verdict .accept⟩, ⟨[.ctState [.invalid]], .verdict .drop⟩, ⟨[.ctState [.related, .established]], .verdict .accept⟩,
   ⟨[.metaL4proto 58], .verdict .accept⟩, ⟨[.metaL4proto 1], .verdict .accept⟩]

/-- `/repo/doc/nftables.conf:28-31` after the static rules. -/
def docAfter : List BaseRule :=
  [⟨[], .jump "LETMEIN-INPUT".toList⟩, ⟨[.metaL4proto 17], .verdict .drop⟩, ⟨[], .verdict .reject⟩]

/-- `/repo/doc/nftables.conf:16-32` the base chain `INPUT`, with the administrator's static rules at the place meant for them (`:26`). -/
def docInput (static : List BaseRule) : List BaseRule := docBefore ++ static ++ docAfter

/-- `/repo/doc/nftables.conf:8,9` the chain for letmeinfwd; the shipped `/repo/letmeind/letmeind.conf:64-66` names the same. -/
def docNames : NftNames := { family := .INet, table := "filter".toList, chainInput := "LETMEIN-INPUT".toList }

end Letmein
