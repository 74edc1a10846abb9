import Verif.Props.Daemon
import Verif.Props.Exact

/-!
# Properties: tightened after mutation tests

C57: which sessions letmeind considers open.
-/

namespace Letmein.Spec

/-- The event makes letmeind accept a connection. -/
def Accepts (fdMax : Nat) (s : LmState) (op : LmOp) : Prop :=
  s.accept = .accepting ∧ ((op = .connectTcp ∧ s.fds < fdMax) ∨ op = .connectUdp)

/-- In this history the connection with the number `id` has been accepted and its session has not ended. -/
def StillServed (fdMax : Nat) (s0 : LmState) (ops : List LmOp) (id : Nat) : Prop :=
  ∃ a op b, ops = a ++ op :: b ∧ Accepts fdMax (lmRun fdMax s0 a) op ∧ (lmRun fdMax s0 a).nextId = id ∧ .sessionDone id ∉ b

end Letmein.Spec

namespace Letmein.Props

open Letmein Prog Spec

theorem stillServed_snoc {fdMax : Nat} {s0 : LmState} {ops : List LmOp} {op : LmOp} {id : Nat} :
    StillServed fdMax s0 (ops ++ [op]) id ↔
      (StillServed fdMax s0 ops id ∧ op ≠ .sessionDone id) ∨ (Accepts fdMax (lmRun fdMax s0 ops) op ∧ (lmRun fdMax s0 ops).nextId = id) := by
  constructor
  · rintro ⟨a, x, b, he, h1, h2, h3⟩
    rcases List.eq_nil_or_concat b with rfl | ⟨b', y, rfl⟩
    · obtain ⟨rfl, hx⟩ := List.append_inj' he rfl
      injection hx with hx
      subst hx
      exact .inr ⟨h1, h2⟩
    · rw [List.concat_eq_append] at he h3
      have : ops ++ [op] = (a ++ x :: b') ++ [y] := by rw [he]; simp
      obtain ⟨rfl, hx⟩ := List.append_inj' this rfl
      injection hx with hx
      subst hx
      refine .inl ⟨⟨a, x, b', rfl, h1, h2, fun hm => h3 (by simp [hm])⟩, fun hx => h3 (by simp [hx])⟩
  · rintro (⟨⟨a, x, b, rfl, h1, h2, h3⟩, h4⟩ | ⟨h1, h2⟩)
    · exact ⟨a, x, b ++ [op], by simp, h1, h2, by simp only [List.mem_append, List.mem_singleton]; rintro (h | h); exact h3 h; exact h4 h.symm⟩
    · exact ⟨ops, op, [], rfl, h1, h2, by simp⟩

theorem sessions_step {limit fdMax : Nat} (hl : 0 < limit) {s : LmState} (hr : LmReach limit fdMax s) (hp : s.phase = .running) (op : LmOp)
    (hp' : (lmStep fdMax s op).phase = .running) (id : Nat) :
    (∃ c ∈ (lmStep fdMax s op).sessions, c.id = id) ↔
      ((∃ c ∈ s.sessions, c.id = id) ∧ op ≠ .sessionDone id) ∨ (Accepts fdMax s op ∧ s.nextId = id) := by
  have hper := (lmReach_permits hr).1
  obtain ⟨m, hm⟩ : ∃ m, s.permits = m + 1 := ⟨limit - 1, by omega⟩
  have hacc : ∀ tcp, (s.accepted tcp).sessions = s.sessions ++ [{ id := s.nextId, tcp }] := fun tcp => by
    simp [LmState.accepted, hm, semAcquire]
  have hex : ∀ tcp, (∃ c ∈ (s.accepted tcp).sessions, c.id = id) ↔ (∃ c ∈ s.sessions, c.id = id) ∨ s.nextId = id := fun tcp => by
    rw [hacc]
    constructor
    · rintro ⟨c, hc, h⟩
      rcases List.mem_append.1 hc with hc | hc
      · exact .inl ⟨c, hc, h⟩
      · simp only [List.mem_singleton] at hc; subst hc; exact .inr h
    · rintro (⟨c, hc, h⟩ | h)
      · exact ⟨c, by simp [hc], h⟩
      · exact ⟨_, List.mem_append_right _ (.head _), h⟩
  unfold Accepts
  unfold lmStep at hp' ⊢
  simp only [hp] at hp' ⊢
  cases op with
  | connectTcp =>
    cases ha : s.accept with
    | accepting =>
      simp only
      by_cases hf : s.fds < fdMax
      · rw [if_pos hf, hex]; simp [hf]
      · rw [if_neg hf]; simp [hf, LmState.acceptFailed]
    | _ => simp
  | connectUdp =>
    cases ha : s.accept with
    | accepting => simp only; rw [hex]; simp
    | _ => simp
  | acceptError => cases ha : s.accept <;> simp [LmState.acceptFailed]
  | sessionDone j =>
    simp only [LmOp.sessionDone.injEq, reduceCtorEq, false_and, or_false, and_false]
    constructor
    · rintro ⟨c, hc, rfl⟩
      rw [List.mem_filter] at hc
      exact ⟨⟨c, hc.1, rfl⟩, fun h => of_decide_eq_true hc.2 (LmOp.sessionDone.inj h).symm⟩
    · rintro ⟨⟨c, hc, rfl⟩, hj⟩
      exact ⟨c, List.mem_filter.2 ⟨hc, decide_eq_true fun h => hj (by rw [h])⟩, rfl⟩
  | sessionPanic => simp at hp'
  | sigterm => simp [LmState.leave]
  | sigint => simp [LmState.leave]
  | sighup => simp
  | exitRecv => simp only; split <;> simp [LmState.leave]

/-- **C57** (which sessions are open). With a limit of at least one connection and while letmeind runs: the sessions whose connections have not been closed are
those of the connections it has accepted and whose sessions have not ended. (With `C57_exit_iff`: SIGTERM ends letmeind properly exactly if there are none.) -/
theorem C57_sessions_iff {limit fdMax : Nat} (hl : 0 < limit) {s0 : LmState} (h0 : lmStart limit = .ok s0) (ops : List LmOp)
    (hp : (lmRun fdMax s0 ops).phase = .running) (id : Nat) :
    (∃ c ∈ (lmRun fdMax s0 ops).sessions, c.id = id) ↔ StillServed fdMax s0 ops id := by
  have hsnoc : ∀ l : List LmOp, l = [] ∨ ∃ a x, l = a ++ [x] := fun l => by
    rcases List.eq_nil_or_concat l with h | ⟨a, x, h⟩
    · exact .inl h
    · exact .inr ⟨a, x, by rw [h, List.concat_eq_append]⟩
  induction hlen : ops.length generalizing ops with
  | zero =>
    obtain rfl := List.length_eq_zero_iff.1 hlen
    have : s0.sessions = [] := by
      unfold lmStart at h0
      split at h0
      · cases h0
      · injection h0 with h0; rw [← h0]
    constructor
    · rintro ⟨c, hc, -⟩; rw [lmRun, this] at hc; cases hc
    · rintro ⟨a, x, b, he, -⟩; simp at he
  | succ m ih =>
    rcases hsnoc ops with rfl | ⟨a, x, rfl⟩
    · simp at hlen
    · rw [lmRun_append] at hp ⊢
      have hpa : (lmRun fdMax s0 a).phase = .running := by
        cases hph : (lmRun fdMax s0 a).phase with
        | running => rfl
        | _ => simp only [lmRun, lmStep, hph] at hp; cases hp
      have ih' := ih a hpa (by simpa using hlen)
      rw [stillServed_snoc]
      exact (sessions_step hl (lmReach_run (.start h0) a) hpa x hp id).trans (or_congr (and_congr ih' Iff.rfl) Iff.rfl)

/-- Two connections, the first session ends: the second is open. -/
example : ∃ s0, lmStart 8 = .ok s0 ∧ (∃ c ∈ (lmRun 100 s0 [.connectTcp, .connectUdp, .sessionDone 0]).sessions, c.id = 1) ∧
    ¬ ∃ c ∈ (lmRun 100 s0 [.connectTcp, .connectUdp, .sessionDone 0]).sessions, c.id = 0 := by
  obtain ⟨s0, h0⟩ : ∃ s0, lmStart 8 = .ok s0 := ⟨_, rfl⟩
  have hs : s0 = { phase := .running, accept := .accepting, permits := 8, sessions := [], nextId := 0, exitMsg := false } := by
    have : lmStart 8 = .ok { phase := .running, accept := .accepting, permits := 8, sessions := [], nextId := 0, exitMsg := false } := by decide
    rw [this] at h0; injection h0 with h0; exact h0.symm
  refine ⟨s0, h0, (C57_sessions_iff (by decide) h0 _ (by rw [hs]; decide) 1).2 ⟨[.connectTcp], .connectUdp, [.sessionDone 0], rfl, ?_, ?_, by simp⟩, ?_⟩
  · rw [hs]; exact ⟨by decide, .inr rfl⟩
  · rw [hs]; decide
  · rw [hs]; decide

end Letmein.Props
