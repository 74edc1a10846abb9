import Verif.Spec.Takeover

/-!
# Specification vocabulary: whose pid is in the pid file
-/

namespace Letmein.Spec

open Letmein

/-- Nobody but letmeind writes to letmeind's pid file. -/
def NobodyElseWrites (h : LmHost) (evs : List LmHostEvent) : Prop :=
  ∀ a fs b, evs = a ++ .others fs :: b → fs lmPidPath = (lmHostRun h a).fs lmPidPath

/-- A start of letmeind in this world, completed or killed on the way. -/
def StartIn (o : LmOpts) (w : LmWorld) (e : LmHostEvent) : Prop := e = .lmStart o w ∨ ∃ i, e = .lmKilled o w i

/-- The pid file is as a certain start has left it. That start got its sockets; what came later has not changed the file. -/
def LeftBy (h : LmHost) (evs : List LmHostEvent) (w : LmWorld) : Prop :=
  ∃ a e b o, evs = a ++ e :: b ∧ StartIn o w e ∧ GetsSockets o w ∧
    ∀ b1 b2, b = b1 ++ b2 → (lmHostRun h (a ++ e :: b1)).fs lmPidPath = (lmHostRun h evs).fs lmPidPath

/-- A number that consists of leading decimal digits of another one. -/
def LeadingDigits (m n : Nat) : Prop := ∃ k, m = n / 10 ^ k ∧ (k = 0 ∨ 10 ^ k ≤ n)

end Letmein.Spec
