import Verif.Props.Daemon

/-!
# Property C67: one request per connection
-/

namespace Letmein.Props

open Letmein Prog Spec

/-- Is it the handling of a message? -/
def isRequest : FwdOp → Bool
  | .request .. => true
  | _ => false

/-- One step: every request uses up a connection, every connection was accepted. -/
theorem lifeStep_conns (setup : FwdSetup) (s : FwdLife) (ev : FwdEvent) :
    (s.opOf ev).toList.countP isRequest + (lifeStep setup s ev).conns.length ≤ s.conns.length ∨
    ((∃ cred pf, ev = .connect cred pf ∧ fwAccept setup.testMode setup.ids cred pf = .ok ()) ∧ s.opOf ev = none ∧
      (lifeStep setup s ev).conns = s.conns ++ [s.nextId]) := by
  unfold lifeStep
  cases ho : s.opOf ev with
  | some op =>
    left
    cases ev with
    | message id rx now ok =>
      simp only [FwdLife.opOf] at ho
      split at ho
      · rename_i hid
        injection ho with ho
        subst ho
        have : (s.conns.filter (· ≠ id)).length < s.conns.length := by
          rw [← List.countP_eq_length_filter]
          refine Nat.lt_of_le_of_ne List.countP_le_length fun h => ?_
          have := List.countP_eq_length.1 h id hid
          simp at this
        simp only [Option.toList_some, List.countP_cons, List.countP_nil, isRequest]
        simp only [if_true]
        omega
      · cases ho
    | exitRecv ok =>
      simp only [FwdLife.opOf] at ho
      split at ho
      · injection ho with ho; subst ho; simp [isRequest]
      · cases ho
    | connect _ _ => simp [FwdLife.opOf] at ho
    | acceptError => simp [FwdLife.opOf] at ho
    | sighup => simp [FwdLife.opOf] at ho
    | _ => simp only [FwdLife.opOf, Option.some.injEq] at ho; subst ho; simp [isRequest]
  | none =>
    simp only [Option.toList_none, List.countP_nil, Nat.zero_add]
    split
    · cases ev with
      | connect cred pf =>
        simp only [FwdLife.connected]
        cases hacc : fwAccept setup.testMode setup.ids cred pf with
        | ok u =>
          simp only
          split
          · exact .inl (Nat.le_refl _)
          · exact .inr ⟨⟨cred, pf, rfl, hacc⟩, trivial, rfl⟩
        | err => exact .inl (Nat.le_refl _)
        | panic => exact .inl (Nat.le_refl _)
      | _ => exact .inl (Nat.le_refl _)
    · exact .inl (Nat.le_refl _)

theorem requests_le (setup : FwdSetup) (p : FwdEvent → Bool)
    (hp : ∀ cred pf, fwAccept setup.testMode setup.ids cred pf = .ok () → p (.connect cred pf) = true) (evs : List FwdEvent) (s : FwdLife) :
    (lifeOps setup s evs).countP isRequest ≤ s.conns.length + evs.countP p := by
  induction evs generalizing s with
  | nil => simp [lifeOps]
  | cons ev rest ih =>
    have h := ih (lifeStep setup s ev)
    rw [lifeOps, List.countP_append, List.countP_cons]
    rcases lifeStep_conns setup s ev with h1 | ⟨⟨cred, pf, rfl, h1⟩, h2, h3⟩
    · omega
    · rw [h2, hp _ _ h1]
      rw [h3] at h
      simp only [List.length_append, List.length_singleton] at h
      simp only [Option.toList_none, List.countP_nil, if_true]
      omega

/-- Ids of connections are given once. -/
def IdsBelow (s : FwdLife) : Prop := ∀ id ∈ s.conns, id < s.nextId

theorem lifeStep_ids (setup : FwdSetup) (s : FwdLife) (ev : FwdEvent) :
    s.nextId ≤ (lifeStep setup s ev).nextId ∧
    ∀ id ∈ (lifeStep setup s ev).conns, id ∈ s.conns ∨ (id = s.nextId ∧ id < (lifeStep setup s ev).nextId) := by
  unfold lifeStep
  cases ho : s.opOf ev with
  | some op =>
    cases ev with
    | message id' rx now ok =>
      refine ⟨Nat.le_refl _, fun id h => .inl ?_⟩
      simp only [List.mem_filter] at h
      exact h.1
    | _ => exact ⟨Nat.le_refl _, fun id h => .inl h⟩
  | none =>
    simp only
    split
    · cases ev with
      | connect cred pf =>
        simp only [FwdLife.connected]
        cases hacc : fwAccept setup.testMode setup.ids cred pf with
        | ok u =>
          simp only
          split
          · exact ⟨Nat.le_succ _, fun id h => .inl h⟩
          · refine ⟨Nat.le_succ _, fun id h => ?_⟩
            simp only [List.mem_append, List.mem_singleton] at h
            rcases h with h | rfl
            · exact .inl h
            · exact .inr ⟨rfl, Nat.lt_succ_self _⟩
        | err => exact ⟨Nat.le_refl _, fun id h => .inl h⟩
        | panic => exact ⟨Nat.le_refl _, fun id h => .inl h⟩
      | _ => exact ⟨Nat.le_refl _, fun id h => .inl h⟩
    · exact ⟨Nat.le_refl _, fun id h => .inl h⟩

theorem lifeStep_below {setup : FwdSetup} {s : FwdLife} (h : IdsBelow s) (ev : FwdEvent) : IdsBelow (lifeStep setup s ev) := by
  obtain ⟨h1, h2⟩ := lifeStep_ids setup s ev
  intro id hid
  rcases h2 id hid with h3 | h3
  · exact Nat.lt_of_lt_of_le (h id h3) h1
  · exact h3.2

theorem lifeRun_below {setup : FwdSetup} {s : FwdLife} (h : IdsBelow s) (evs : List FwdEvent) : IdsBelow (lifeRun setup s evs) := by
  induction evs generalizing s with
  | nil => exact h
  | cons ev rest ih => exact ih (lifeStep_below h ev)

/-- An id that is gone stays gone. -/
theorem gone_stays {setup : FwdSetup} {s : FwdLife} {id : Nat} (h1 : id < s.nextId) (h2 : id ∉ s.conns) (evs : List FwdEvent) :
    id ∉ (lifeRun setup s evs).conns := by
  induction evs generalizing s with
  | nil => exact h2
  | cons ev rest ih =>
    obtain ⟨ha, hb⟩ := lifeStep_ids setup s ev
    refine ih (Nat.lt_of_lt_of_le h1 ha) fun h => ?_
    rcases hb id h with h | ⟨rfl, _⟩
    · exact h2 h
    · exact absurd h1 (Nat.lt_irrefl _)

/-- **C67** (number). However many messages arrive: letmeinfwd handles at most as many as there were connections from letmeind. (`p` is any
criterion that all connections from letmeind meet.) -/
theorem C67_no_more_requests_than_connections {passwd group : Option Str} {conf : Config} {k0 k1 : Kernel} {nftOk : Bool} {limit : Nat}
    {listener : UInt32 × UInt32 → R UnixListener} {setup : FwdSetup} {s0 : FwdLife}
    (h0 : lifeStart false passwd group conf k0 nftOk limit listener = (k1, .ok (setup, s0))) (evs : List FwdEvent) (p : FwdEvent → Bool)
    (hp : ∀ cred pf, IsLetmeind passwd group pf cred → p (.connect cred pf) = true) :
    (lifeOps setup s0 evs).countP isRequest ≤ evs.countP p := by
  obtain ⟨rfl, htest, hids, hconns, -⟩ := lifeStart_ok h0
  have := requests_le setup p (fun cred pf h => hp cred pf ?_) evs s0
  · rw [hconns] at this; simpa using this
  · rw [htest] at h
    exact (C26_served_iff passwd group pf cred).1 (by rw [hids, R.bind_ok]; exact h)

/-- **C67** (each). After a message on a connection nothing that arrives on this connection has any effect, whatever happens in between. -/
theorem C67_second_message_ignored {testMode : Bool} {passwd group : Option Str} {conf : Config} {k0 k1 : Kernel} {nftOk : Bool} {limit : Nat}
    {listener : UInt32 × UInt32 → R UnixListener} {setup : FwdSetup} {s0 : FwdLife}
    (h0 : lifeStart testMode passwd group conf k0 nftOk limit listener = (k1, .ok (setup, s0))) (a b : List FwdEvent) (id : Nat) (rx rx' : FwRecvOut)
    (now now' : Nat) (ok ok' : Bool) (hopen : id ∈ (lifeRun setup s0 a).conns) :
    lifeRun setup s0 (a ++ .message id rx now ok :: (b ++ [.message id rx' now' ok'])) =
      lifeRun setup s0 (a ++ .message id rx now ok :: b) := by
  have hb0 : IdsBelow s0 := by
    obtain ⟨-, -, -, hconns, -⟩ := lifeStart_ok h0
    intro x hx; rw [hconns] at hx; cases hx
  have hlt : id < (lifeRun setup s0 a).nextId := lifeRun_below hb0 a id hopen
  have hgone : id ∉ (lifeRun setup (lifeStep setup (lifeRun setup s0 a) (.message id rx now ok)) b).conns := by
    refine gone_stays (Nat.lt_of_lt_of_le hlt (lifeStep_ids _ _ _).1) ?_ b
    simp [lifeStep, FwdLife.opOf, hopen]
  simp only [lifeRun_append, lifeRun]
  generalize lifeRun setup (lifeStep setup (lifeRun setup s0 a) (.message id rx now ok)) b = t at *
  have hop : t.opOf (.message id rx' now' ok') = none := by simp [FwdLife.opOf, hgone]
  unfold lifeStep
  rw [hop]
  simp

/-- Two messages on one connection: the second opens nothing, a second connection is needed. -/
def twoOnOne : List FwdEvent := lifeAsk ++ [.message 0 (.msg (FwMessage.newOpen examplePeer .Tcp 443)) 0 true]
/-- The same with a second connection. -/
def twoOnTwo : List FwdEvent := twoOnOne ++
  [.connect lifePeer (some "1234\n".toList), .message 1 (.msg (FwMessage.newOpen examplePeer .Tcp 443)) 0 true]

example : (lifeBegin.map fun x => (lifeOps x.1 x.2 twoOnOne).countP isRequest) = some 1 ∧
    (lifeBegin.map fun x => (lifeRun x.1 x.2 (lifeAsk.take 1)).conns) = some [0] ∧
    (lifeBegin.map fun x => chainAccepts fwNames (lifeRun x.1 x.2 twoOnOne).core.kernel ⟨examplePeer, .tcp, 443⟩) = some false ∧
    (lifeBegin.map fun x => chainAccepts fwNames (lifeRun x.1 x.2 twoOnTwo).core.kernel ⟨examplePeer, .tcp, 443⟩) = some true ∧
    (lifeBegin.map fun x => (lifeOps x.1 x.2 twoOnTwo).countP isRequest) = some 2 := by decide +kernel

end Letmein.Props
