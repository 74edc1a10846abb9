import Verif.Model.Prog

/-!
# Reasoning about all traces of an interactive program
-/

namespace Letmein.Prog

/-- `Ok P F p h`: started with history `h`, every event `e` that happens after history `h'` satisfies `P h' e`, and if
the program ends with `r` after history `h'` then `F h' r`. -/
def Ok {α : Type} (P : List Ev → Ev → Prop) (F : List Ev → R α → Prop) : Prog α → List Ev → Prop
  | .ret r, h => F h r
  | .act a k, h => ∀ x, P h ⟨a, x⟩ ∧ Ok P F (k x) (h ++ [⟨a, x⟩])

variable {α β : Type} {P : List Ev → Ev → Prop}

theorem Ok.sound {F : List Ev → R α → Prop} {p : Prog α} {h tr : List Ev} {o : Option (R α)}
    (hok : Ok P F p h) (ht : p.Trace tr o) :
    (∀ pre e post, tr = pre ++ e :: post → P (h ++ pre) e) ∧ (∀ r, o = some r → F (h ++ tr) r) := by
  induction p generalizing h tr with
  | ret r =>
    obtain ⟨rfl, ho⟩ := ht
    refine ⟨by intro pre e post hc; simp at hc, ?_⟩
    intro r' hr'
    rcases ho with ho | ho
    · simp [ho] at hr'
    · rw [ho] at hr'; injection hr' with hr'; subst hr'; simpa [Ok] using hok
  | act a k ih =>
    cases tr with
    | nil =>
      simp only [Trace] at ht
      subst ht
      exact ⟨by intro pre e post hc; simp at hc, by simp⟩
    | cons e tr =>
      obtain ⟨x, rfl, ht⟩ := ht
      obtain ⟨h1, h2⟩ := hok x
      obtain ⟨i1, i2⟩ := ih x h2 ht
      constructor
      · intro pre e post heq
        cases pre with
        | nil => simp at heq; rw [← heq.1]; simpa using h1
        | cons e' pre =>
          simp at heq
          have := i1 pre e post heq.2
          simpa [← heq.1] using this
      · intro r hr
        have := i2 r hr
        simpa using this

theorem Ok_ret {F : List Ev → R α → Prop} {r : R α} {h : List Ev} : Ok P F (.ret r) h ↔ F h r := Iff.rfl

theorem Ok_act {F : List Ev → R α → Prop} {a : Act} {k : a.Resp → Prog α} {h : List Ev} :
    Ok P F (.act a k) h ↔ ∀ x, P h ⟨a, x⟩ ∧ Ok P F (k x) (h ++ [⟨a, x⟩]) := Iff.rfl

/-- What has to hold at the end of `p` for `bind p f`. -/
def bindF (P : List Ev → Ev → Prop) (F : List Ev → R β → Prop) (f : α → Prog β) : List Ev → R α → Prop
  | h, .ok a => Ok P F (f a) h
  | h, .err => F h .err
  | h, .panic => F h .panic

theorem Ok_bind {F : List Ev → R β → Prop} {p : Prog α} {f : α → Prog β} {h : List Ev} :
    Ok P F (p >>= f) h ↔ Ok P (bindF P F f) p h := by
  show Ok P F (bind p f) h ↔ _
  induction p generalizing h with
  | ret r => cases r <;> simp [bind, Ok, bindF]
  | act a k ih => simp [bind, Ok, ih]

/-- What has to hold at the end of `p` for `ignore p`. -/
def ignoreF (F : List Ev → R Unit → Prop) : List Ev → R α → Prop
  | h, .ok _ => F h (.ok ())
  | h, .err => F h (.ok ())
  | h, .panic => F h .panic

theorem Ok_ignore {F : List Ev → R Unit → Prop} {p : Prog α} {h : List Ev} :
    Ok P F p.ignore h ↔ Ok P (ignoreF F) p h := by
  induction p generalizing h with
  | ret r => cases r <;> simp [ignore, Ok, ignoreF]
  | act a k ih => simp [ignore, Ok, ih]

/-- What has to hold at the end of `p` for `orElse p q`. -/
def orElseF (P : List Ev → Ev → Prop) (F : List Ev → R α → Prop) (q : Prog α) : List Ev → R α → Prop
  | h, .ok a => F h (.ok a)
  | h, .err => Ok P F q h
  | h, .panic => F h .panic

theorem Ok_orElse {F : List Ev → R α → Prop} {p q : Prog α} {h : List Ev} :
    Ok P F (p.orElse q) h ↔ Ok P (orElseF P F q) p h := by
  induction p generalizing h with
  | ret r => cases r <;> simp [orElse, Ok, orElseF]
  | act a k ih => simp [orElse, Ok, ih]

theorem Ok.mono {P' : List Ev → Ev → Prop} {F F' : List Ev → R α → Prop} {p : Prog α} {h : List Ev}
    (hok : Ok P F p h) (hP : ∀ h e, P h e → P' h e) (hF : ∀ h r, F h r → F' h r) : Ok P' F' p h := by
  induction p generalizing h with
  | ret r => exact hF _ _ hok
  | act a k ih => exact fun x => ⟨hP _ _ (hok x).1, ih x (hok x).2⟩

/-! ### Playing a program with scripted answers (for concrete examples) -/

/-- Untyped answers. -/
inductive Ans where
  | bool (b : Bool) | recv (r : RecvOut) | r8 (x : Option (Arr 8)) | r32 (x : Option (Arr 32)) | fw (r : FwRecvOut)

/-- The answer as an answer to the given action, if it has the right kind. -/
def Ans.as : (a : Act) → Ans → Option a.Resp
  | .connect, .bool b => some b
  | .recv, .recv r => some r
  | .send _, .bool b => some b
  | .rand8, .r8 x => some x
  | .rand32, .r32 x => some x
  | .fwConnect, .bool b => some b
  | .fwSend _, .bool b => some b
  | .fwRecv, .fw r => some r
  | _, _ => none

/-- Run a program on a script; stops when the script ends or does not fit. -/
def play {α : Type} : Prog α → List Ans → List Ev × Option (R α)
  | .ret r, _ => ([], some r)
  | .act _ _, [] => ([], none)
  | .act a k, x :: rest =>
    match x.as a with
    | none => ([], none)
    | some y =>
      let r := play (k y) rest
      (⟨a, y⟩ :: r.1, r.2)

/-- What is played is a trace. -/
theorem play_trace {α : Type} (p : Prog α) (l : List Ans) : p.Trace (play p l).1 (play p l).2 := by
  induction p generalizing l with
  | ret r => exact ⟨rfl, .inr rfl⟩
  | act a k ih =>
    cases l with
    | nil => rfl
    | cons x rest =>
      rw [play]
      cases h : x.as a with
      | none => rfl
      | some y => exact ⟨y, rfl, ih y rest⟩

end Letmein.Prog
