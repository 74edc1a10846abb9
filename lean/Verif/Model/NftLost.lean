import Verif.Model.FwTasks

/-!
# An nft whose failure is reported wrongly

`FwTasks` trusts the exit status of `nft`. Here a run may also change the ruleset and be reported as failed: `nft` is killed, or its output cannot be
read, after the kernel has taken the batch (`/repo/letmeinfwd/src/firewall/nftables.rs:332-343` has nothing else to go by).
-/

namespace Letmein

/-- A step of the tasks, or a run of `nft` that takes effect and is reported as failed (`/repo/letmeinfwd/src/firewall/nftables.rs:332-343`). `L` says in which
tasks this may happen. -/
inductive NStep (conf : Config) (L : Who → Prop) (P : Kernel → Kernel → Prop) : TSys → TSys → Prop where
  | step {s s'} : TStep conf P s s' → NStep conf L P s s'
  | lost {s who since cmds k k'} : s.alive → s.holder = some ⟨who, since, .apply cmds k⟩ → L who → applyCmds s.kernel cmds = some k' →
      NStep conf L P s { s with kernel := k', holder := some ⟨who, since, k false⟩, crashed := (k false).panics }

/-- Any number of steps. -/
inductive NSteps (conf : Config) (L : Who → Prop) (P : Kernel → Kernel → Prop) : TSys → TSys → Prop where
  | refl (s) : NSteps conf L P s s
  | step {s s' s''} : NSteps conf L P s s' → NStep conf L P s' s'' → NSteps conf L P s s''

end Letmein
