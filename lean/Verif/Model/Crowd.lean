import Verif.Model.Whole

/-!
# Many knocks at the same time

Any number of clients, each with its session of letmeind, and one letmeinfwd for all of them. Which session a message belongs to is decided by the connection it
arrives on; that part is in `Model/Udp` and, for TCP, in the kernel.
-/

namespace Letmein

/-- The knocks, by number, and the letmeinfwd that they share. What the entries of `knocks` say about letmeinfwd does not count.
`/repo/letmeind/src/main.rs:157-190` each session is a task of its own; `/repo/letmeinfwd/src/main.rs:216-245` so is each connection to letmeinfwd. -/
structure Crowd where
  knocks : Nat → Whole
  fwd : FwdState

/-- One knock together with the shared letmeinfwd; see `/repo/letmeind/src/main.rs:168-179`. -/
def Crowd.whole (C : Crowd) (i : Nat) : Whole := { C.knocks i with fwd := C.fwd }

/-- A step of the knock with this number (see `/repo/letmeind/src/main.rs:168-179`), or something else that happens to letmeinfwd. -/
inductive CEv where
  | knock (i : Nat) (e : WEv)
  | other (op : FwdOp)

/-- One step of a crowd of `n` knocks: the tasks of `/repo/letmeind/src/main.rs:168-179` and `/repo/letmeinfwd/src/main.rs:230-240` take their steps in any order. letmeinfwd handles one
message at a time, which C83 justifies. -/
inductive CStep (fconf : Config) (n : Nat) : Crowd → CEv → Crowd → Prop where
  | knock {C i e W} : i < n → e.own = true → WStep fconf (C.whole i) e W →
      CStep fconf n C (.knock i e) ⟨fun j => if j = i then W else C.knocks j, W.fwd⟩
  | other {C} (op : FwdOp) : CStep fconf n C (.other op) ⟨C.knocks, (fwdStep fconf C.fwd op).2⟩

/-- Several steps, see `/repo/letmeind/src/main.rs:157-190`. -/
inductive CSteps (fconf : Config) (n : Nat) : Crowd → List CEv → Crowd → Prop where
  | refl (C) : CSteps fconf n C [] C
  | step {C C' C'' evs e} : CSteps fconf n C evs C' → CStep fconf n C' e C'' → CSteps fconf n C (evs ++ [e]) C''

/-- What one client wants, and how letmeind sees it: `/repo/letmein/src/command/knock.rs:40-50` the client's data; `/repo/letmeind/src/main.rs:168-170` the address. -/
structure Knocker where
  peer : IpAddr
  user : UserId
  resource : ResourceId
  key : Key

/-- All at the start, see `/repo/letmein/src/command/knock.rs:77-140` and `/repo/letmeind/src/main.rs:168-179`; letmeinfwd in the state `f`. -/
def Crowd.init (mac : MacFn) (conf : Config) (who : Nat → Knocker) (f : FwdState) : Crowd :=
  { knocks := fun i => Whole.init mac conf (who i).peer (who i).user (who i).resource (who i).key f, fwd := f }

/-- What happens to letmeinfwd, see `/repo/letmeinfwd/src/server.rs:76-144`. -/
def CEv.fwdOp : CEv → Option FwdOp
  | .knock _ e => e.fwdOp
  | .other op => some op

end Letmein
