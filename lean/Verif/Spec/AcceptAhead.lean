import Verif.Model.AcceptAhead

/-!
# Specification vocabulary: what is the same with and without tasks that accept ahead
-/

namespace Letmein.Spec

open Letmein

/-- The events that have nothing to do with accepting, in the model with the tasks. -/
def AheadEv.plain : AheadEv → Option LmOp
  | .sessionDone id => some (.sessionDone id)
  | .sessionPanic => some .sessionPanic
  | .sigterm => some .sigterm
  | .sigint => some .sigint
  | .sighup => some .sighup
  | .exitRecv => some .exitRecv
  | _ => none

/-- The same in the model without. -/
def LmOp.plain : LmOp → Option LmOp
  | .connectTcp | .connectUdp | .acceptError => none
  | op => some op

/-- The TCP task takes a connection from the listener. -/
def takesTcp (fdMax : Nat) (s : LmAhead) (ev : AheadEv) : Bool :=
  decide (ev = .tcpArrives) && decide (s.core.phase = .running) && decide (s.tcp = .waiting) && decide (s.core.accept ≠ .ended) && decide (s.core.fds < fdMax)

/-- The loop gets the TCP task's connection. -/
def getsTcp (s : LmAhead) (ev : AheadEv) : Bool :=
  (decide (ev = .pickTcp true) || decide (ev = .pickTcp false)) && decide (s.core.phase = .running) && decide (s.tcp = .got) && decide (s.core.accept = .accepting)

/-- How often each happens in a history. -/
def nTakesTcp (fdMax : Nat) : LmAhead → List AheadEv → Nat
  | _, [] => 0
  | s, ev :: rest => (takesTcp fdMax s ev).toNat + nTakesTcp fdMax (aheadStep fdMax s ev) rest
def nGetsTcp (fdMax : Nat) : LmAhead → List AheadEv → Nat
  | _, [] => 0
  | s, ev :: rest => (getsTcp s ev).toNat + nGetsTcp fdMax (aheadStep fdMax s ev) rest

end Letmein.Spec
