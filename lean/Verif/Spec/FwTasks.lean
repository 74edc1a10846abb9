import Verif.Model.FwTasks
import Verif.Spec.Firewall

/-!
# Specification of the tasks of letmeinfwd

A history of operations, each done at one moment, that explains what the tasks have done and answered.
-/

namespace Letmein.Spec

/-- A relation that holds between the ruleset before and after any number of changes by other programs. -/
structure Preorder' (P : Kernel → Kernel → Prop) : Prop where
  refl : ∀ k, P k k
  trans : ∀ k k' k'', P k k' → P k' k'' → P k k''

/-- Other programs change the ruleset as `P` allows; reordering the hash map keeps its entries. -/
def OpFairBy (P : Kernel → Kernel → Prop) (s : FwdState) : FwdOp → Prop
  | .foreign k => P s.kernel k
  | .reorder l => l.Perm s.fw.leases
  | .maintain _ env => (∀ k, P k (env.afterList k)) ∧ (∀ k, P k (env.beforeRebuild k))
  | _ => True

/-- Every operation of the history is fair. -/
def FairBy (conf : Config) (P : Kernel → Kernel → Prop) : FwdState → List FwdOp → Prop
  | _, [] => True
  | s, op :: rest => OpFairBy P s op ∧ FairBy conf P (fwdStep conf s op).2 rest

/-- A history in which the requests carry the number of the connection. -/
abbrev Tagged := List (Option Nat × FwdOp)

/-- The history without the numbers. -/
def Tagged.ops (h : Tagged) : List FwdOp := h.map (·.2)

/-- The history with the answers: number of the connection, operation, answer. -/
def Tagged.answers (conf : Config) (f : FwdState) : Tagged → List (Option Nat × FwdOp × Option FwMessage)
  | [] => []
  | (tag, op) :: rest => (tag, op, (fwdStep conf f op).1) :: Tagged.answers conf (fwdStep conf f op).2 rest

/-- What the history says about connection `id`: messages and answers. -/
def Tagged.of (conf : Config) (f : FwdState) (h : Tagged) (id : Nat) : List (FwdOp × Option FwMessage) :=
  ((h.answers conf f).filter (fun e => e.1 = some id)).map (·.2)

/-- The history has this much to say about the connection: nothing if there is no answer yet, otherwise one request and the answer. -/
def TellsConn (c : ConnTask) : List (FwdOp × Option FwMessage) → Prop
  | told => match c.pc with
    | .replied answer => ∃ now ok, told = [(.request c.rx now ok, answer)]
    | _ => told = []

/-- The phase of the daemon. -/
def phaseOf (s : TSys) : FwdPhase :=
  if s.main = .ended then .stopped else if s.maint = .ended then .stopping else .running

/-- The history of operations, one after the other, explains what has happened in the process up to this state. -/
structure Explains (conf : Config) (P : Kernel → Kernel → Prop) (f : FwdState) (h : Tagged) (s : TSys) : Prop where
  /-- requests, and only these, belong to connections -/
  tags : ∀ e ∈ h, e.1.isSome ↔ ∃ rx now ok, e.2 = .request rx now ok
  /-- all answers given on connections are those of the history -/
  conns : ∀ (id : Nat) c, s.conns[id]? = some c → TellsConn c (h.of conf f id)
  /-- nothing else is in the history -/
  others : ∀ id, s.conns.length ≤ id → h.of conf f id = []
  fair : FairBy conf P f h.ops
  chronological : Chronological h.ops
  clock : ∀ op ∈ h.ops, ∀ t, FwdOp.time op = some t → t ≤ s.clock
  /-- when no operation is under way, the firewall object and the ruleset are those of the history -/
  idle : s.holder = none → (fwdRun conf f h.ops).2.fw = s.fw ∧ (fwdRun conf f h.ops).2.kernel = s.kernel
  phase : (fwdRun conf f h.ops).2.phase = phaseOf s

/-- On every path the program runs `nft` at most `n` times. -/
inductive AtMost : Nat → LProg → Prop where
  | ret (n r fw) : AtMost n (.ret r fw)
  | list (n k) : (∀ x, AtMost n (k x)) → AtMost (n + 1) (.list k)
  | apply (n cmds k) : (∀ ok, AtMost n (k ok)) → AtMost (n + 1) (.apply cmds k)

end Letmein.Spec
