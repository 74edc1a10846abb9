import Verif.Spec.Firewall

/-!
# Other programs change letmeinfwd's chain

The specification of C86: histories in which other programs may do anything to the ruleset, also to letmeinfwd's own chain
(`flush ruleset` in `/repo/doc/nftables.conf:6`).
-/

namespace Letmein.Spec

open Letmein

/-- Nothing is demanded of other programs; reordering the hash map keeps its entries. -/
def Loose (conf : Config) : FwdState → List FwdOp → Prop
  | _, [] => True
  | s, op :: rest => (∀ l, op = .reorder l → l.Perm s.fw.leases) ∧ Loose conf (fwdStep conf s op).2 rest

/-- Nothing happens that would make letmeinfwd write to its chain, if it only writes to it for new grants, expired grants and the
shutdown: requests are for grants that there are already, and no grant expires. Other programs do not touch the chain. -/
def IdleOp (n : NftNames) (g : Grants) (s : FwdState) : FwdOp → Prop
  | .foreign k => ownRules n k = ownRules n s.kernel
  | .reorder l => l.Perm s.fw.leases
  | .maintain now _ => ∀ a p e, g a p = some e → now < e
  | .request rx now ok => ∀ a p t, granted (.request rx now ok) (some FwMessage.newAck) = some (a, p, t) → (g a p).isSome
  | .terminate _ => False

/-- Every operation is like that. -/
def Idle (conf : Config) (n : NftNames) : Grants → FwdState → List FwdOp → Prop
  | _, _, [] => True
  | g, s, op :: rest => IdleOp n g s op ∧ Idle conf n (g.step conf.nftTimeout op (fwdStep conf s op).1) (fwdStep conf s op).2 rest

end Letmein.Spec
