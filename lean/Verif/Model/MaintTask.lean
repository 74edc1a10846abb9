import Verif.Model.FwServer

/-!
# The maintenance task of letmeinfwd

Models `/repo/letmeinfwd/src/main.rs:46,245-262`: when the rounds of the task take place. Times are nanoseconds of one clock.
-/

namespace Letmein

/-- `/repo/letmeinfwd/src/main.rs:46` `FW_MAINTAIN_PERIOD`: 5000 ms. -/
def FW_MAINTAIN_PERIOD : Duration := 5000 * 1000000

/-- One round of the loop, `/repo/letmeinfwd/src/main.rs:252-260`. -/
structure Round where
  /-- when the tick is due -/
  due : Nat
  /-- when `interval.tick().await` returns -/
  woken : Nat
  /-- when `fw.lock().await` returns; `maintain` compares the leases' ends with this time -/
  locked : Nat
  /-- when `maintain` returns and the lock is released -/
  done : Nat
  deriving DecidableEq

/-- `/repo/letmeinfwd/src/main.rs:251-261` the rounds of the task. `due`: when the next tick is due; `free`: when the task is ready to wait for it.
`tokio::time::interval` after its documentation: the first tick is due at once, each further one a period after the last one was due, whenever that one was
taken (`MissedTickBehavior::Burst`); `tick` does not return early. -/
def maintRounds (due free : Nat) : List Round → Prop
  | [] => True
  | r :: rest => r.due = due ∧ due ≤ r.woken ∧ free ≤ r.woken ∧ r.woken ≤ r.locked ∧ r.locked ≤ r.done ∧ maintRounds (due + FW_MAINTAIN_PERIOD) r.done rest

/-- `/repo/letmeinfwd/src/main.rs:245-262` the task from its start on. -/
def maintTask (start : Nat) (rounds : List Round) : Prop := maintRounds start start rounds

end Letmein
