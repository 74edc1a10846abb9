import Verif.Model.RunDir

/-!
# Specification vocabulary: Unix permissions
-/

namespace Letmein.Spec

open Letmein

/-- The class of permission bits (owner, group, others) that applies to a process decides; root may do everything.
`bit`: 4 read, 2 write, 1 search. -/
def MayUse (n : Node) (uid : UInt32) (gids : List UInt32) (bit : Nat) : Prop :=
  uid = 0 ∨
    (uid = n.uid ∧ n.mode / 64 &&& bit ≠ 0) ∨
    (uid ≠ n.uid ∧ n.gid ∈ gids ∧ n.mode / 8 &&& bit ≠ 0) ∨
    (uid ≠ n.uid ∧ n.gid ∉ gids ∧ n.mode &&& bit ≠ 0)

/-- A process can connect to the Unix socket: somebody listens on it, the directory may be searched and the socket written to. -/
def CanConnect (fs : Fs) (dir sock : Str) (uid : UInt32) (gids : List UInt32) : Prop :=
  ∃ d s, fs dir = some d ∧ fs sock = some s ∧ s.kind = .sock true ∧ MayUse d uid gids 1 ∧ MayUse s uid gids 2

/-- Nobody but root and the members of the group can connect. -/
def Closed (fs : Fs) (dir sock : Str) (gid : UInt32) : Prop :=
  ∀ uid gids, CanConnect fs dir sock uid gids → uid = 0 ∨ gid ∈ gids

end Letmein.Spec
