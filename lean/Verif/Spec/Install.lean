import Verif.Model.Install
import Verif.Spec.RunDir

/-!
# Specification vocabulary: who may use installed files
-/

namespace Letmein.Spec

open Letmein

/-- A process of this user and these groups can read what is at the path. -/
def CanRead (fs : Fs) (path : Str) (uid : UInt32) (gids : List UInt32) : Prop := ∃ n, fs path = some n ∧ MayUse n uid gids 4

/-- Only root can change what is at the path. -/
def OnlyRootWrites (fs : Fs) (path : Str) : Prop :=
  ∃ n, fs path = some n ∧ ∀ uid gids, MayUse n uid gids 2 → uid = 0

/-- Others than the owner and the group cannot read it. -/
def ClosedToOthers (n : Node) : Prop := n.mode &&& 4 = 0

/-- There is a file with this content. -/
def HasContent (fs : Fs) (path : Str) (c : Str) : Prop := ∃ n, fs path = some n ∧ n.kind = .file c

end Letmein.Spec
