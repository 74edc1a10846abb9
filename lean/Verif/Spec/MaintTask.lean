import Verif.Model.MaintTask
import Verif.Spec.Firewall

/-!
# How long the maintenance task is held up
-/

namespace Letmein.Spec

/-- The rounds are held up by others no longer than this: `wake` between the time a tick could be taken and the time it is, `lock` waiting for the firewall
object, `work` for the run of `nft`. `free`: when the task is ready for the first of these rounds. -/
def HeldUpAtMost (wake lock work : Nat) (free : Nat) : List Round → Prop
  | [] => True
  | r :: rest => r.woken ≤ max r.due free + wake ∧ r.locked ≤ r.woken + lock ∧ r.done ≤ r.locked + work ∧ HeldUpAtMost wake lock work r.done rest

/-- The rounds have taken place in the history. -/
def Performed (rounds : List Round) (ops : List FwdOp) : Prop := ∀ r ∈ rounds, ∃ env, FwdOp.maintain r.locked env ∈ ops

/-- Nothing of the history was before `start`. -/
def NotBefore (start : Nat) (ops : List FwdOp) : Prop := ∀ op ∈ ops, ∀ t, FwdOp.time op = some t → start ≤ t

end Letmein.Spec
