import Verif.Model.Lossy

/-!
# Specification vocabulary: datagrams delivered more than once
-/

namespace Letmein.Spec

open Letmein

/-- No receive of the run has waited in vain. -/
def NeverTimesOut (evs : List LossyEv) : Prop := .client .timeout ∉ evs ∧ .server .timeout ∉ evs

/-- No datagram has been taken twice: neither side has seen a copy. -/
def NoCopies (s : LossyNet) : Prop := s.cTaken.Nodup ∧ s.sTaken.Nodup

/-- The result of a program that has ended. -/
def endedWith : Prog Unit → Option (R Unit)
  | .ret x => some x
  | .act _ _ => none

end Letmein.Spec
