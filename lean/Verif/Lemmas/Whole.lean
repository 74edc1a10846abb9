import Verif.Model.Whole
import Verif.Lemmas.Joint
import Verif.Props.Trio
import Verif.Props.FirewallMore

/-!
# The linear run of a knock with letmeinfwd
-/

namespace Letmein

open Prog Spec Props

/-- What happened to letmeinfwd. -/
def wholeOps (evs : List WEv) : List FwdOp := evs.filterMap WEv.fwdOp

/-- The part without letmeinfwd; `reqs` are the requests made. -/
def Whole.joint (W : Whole) (reqs : List FwMessage) : Joint := ⟨W.client, W.server, W.c2s, W.s2c, reqs⟩

section
variable (mac : MacFn) (peer : IpAddr) (u : UserId) (r : ResourceId) (key : Key) (res : Resource) (pt : PortType)

/-- Where the parties are after `i` steps of the knock. -/
def WAt (i : Nat) (W : Whole) : Prop :=
  let req := FwMessage.newOpen peer pt res.port
  if i ≤ 12 then Phase mac peer u r key res pt i (W.joint []) ∧ W.toFw = [] ∧ W.fromFw = []
  else if i = 13 then Phase mac peer u r key res pt 13 (W.joint [req]) ∧ W.toFw = [req] ∧ W.fromFw = []
  else if i = 14 then Phase mac peer u r key res pt 13 (W.joint [req]) ∧ W.toFw = [] ∧ W.fromFw = [FwMessage.newAck]
  else Phase mac peer u r key res pt (i - 1) (W.joint [req]) ∧ W.toFw = [] ∧ W.fromFw = []

theorem phase_reqs {i : Nat} {J : Joint} (h : Phase mac peer u r key res pt i J) :
    J.reqs = if i ≤ 12 then [] else [FwMessage.newOpen peer pt res.port] := by
  unfold Phase at h
  simp only at h
  split at h <;> first | exact h.elim | (obtain ⟨_, _, _, _, h⟩ := h; simpa using h) |
    (obtain ⟨_, _, _, _, _, h⟩ := h; simpa using h) | (obtain ⟨_, _, _, _, _, _, h⟩ := h; simpa using h)

/-- In phase 13 nothing but the answer of letmeinfwd helps. -/
theorem phase13 {J : Joint} (h : Phase mac peer u r key res pt 13 J) :
    (∃ k, J.client = .act .recv k) ∧ (∃ k, J.server = .act .fwRecv k) ∧ J.c2s = [] ∧ J.s2c = [] := by
  obtain ⟨⟨k, h1, _⟩, ⟨k', h2, _⟩, h3, h4, _⟩ := h
  exact ⟨⟨k, h1⟩, ⟨k', h2⟩, h3, h4⟩

/-- Steps of the two programs that do not concern letmeinfwd. -/
theorem whole_plain {fconf : Config} {W W' : Whole} (hs : WStep fconf W .exchange W') (reqs : List FwMessage) :
    (JStep (W.joint reqs) (W'.joint reqs) ∧ W'.toFw = W.toFw ∧ W'.fromFw = W.fromFw ∧ W'.fwd = W.fwd ∧
      ((∃ k, W.client = .act .recv k) → (∃ k, W.server = .act .fwRecv k) → W.s2c ≠ [])) ∨
    (∃ m k, W.server = .act (.fwSend m) k ∧ JStep (W.joint reqs) (W'.joint (reqs ++ [m])) ∧ W'.toFw = W.toFw ++ [m] ∧
      W'.fromFw = W.fromFw ∧ W'.fwd = W.fwd) ∨
    (∃ m, W.fromFw = m :: W'.fromFw ∧ W'.toFw = W.toFw ∧ W'.fwd = W.fwd ∧
      (m.operation = .Ack → JStep (W.joint reqs) (W'.joint reqs))) := by
  cases hs with
  | cConnect => exact .inl ⟨.cConnect, rfl, rfl, rfl, fun ⟨k, h⟩ => by cases h⟩
  | cRand salt h => exact .inl ⟨.cRand salt h, rfl, rfl, rfl, fun ⟨k, h⟩ => by cases h⟩
  | cSend => exact .inl ⟨.cSend, rfl, rfl, rfl, fun ⟨k, h⟩ => by cases h⟩
  | cRecv => exact .inl ⟨.cRecv, rfl, rfl, rfl, fun _ _ => by simp⟩
  | sRand8 salt h => exact .inl ⟨.sRand8 salt h, rfl, rfl, rfl, fun _ ⟨k, h⟩ => by cases h⟩
  | sRand32 x h => exact .inl ⟨.sRand32 x h, rfl, rfl, rfl, fun _ ⟨k, h⟩ => by cases h⟩
  | sSend => exact .inl ⟨.sSend, rfl, rfl, rfl, fun _ ⟨k, h⟩ => by cases h⟩
  | sRecv => exact .inl ⟨.sRecv, rfl, rfl, rfl, fun _ ⟨k, h⟩ => by cases h⟩
  | sFwConnect => exact .inl ⟨.sFwConnect, rfl, rfl, rfl, fun _ ⟨k, h⟩ => by cases h⟩
  | sFwSend => exact .inr (.inl ⟨_, _, rfl, .sFwSend, rfl, rfl, rfl⟩)
  | sFwRecv => exact .inr (.inr ⟨_, rfl, rfl, rfl, fun h => .sFwRecv _ h⟩)

/-- A step of client or session. -/
theorem wAt_exchange {fconf : Config} {i : Nat} {W W' : Whole} (h : WAt mac peer u r key res pt i W)
    (hs : WStep fconf W .exchange W') : WAt mac peer u r key res pt (i + 1) W' ∧ W'.fwd = W.fwd := by
  unfold WAt at h ⊢
  simp only at h ⊢
  by_cases h12 : i ≤ 12
  · rw [if_pos h12] at h
    obtain ⟨hp, h1, h2⟩ := h
    rcases whole_plain hs [] with ⟨hj, e1, e2, e3, _⟩ | ⟨m, k, hk, hj, e1, e2, e3⟩ | ⟨m, e1, _⟩
    · have hp' := phase_step mac peer u r key res pt hp hj
      have := phase_reqs mac peer u r key res pt hp'
      by_cases h13 : i + 1 ≤ 12
      · rw [if_pos h13, e1, e2]; exact ⟨⟨hp', h1, h2⟩, e3⟩
      · rw [if_neg h13] at this; cases this
    · have hp' := phase_step mac peer u r key res pt hp hj
      have hq := phase_reqs mac peer u r key res pt hp'
      by_cases h13 : i + 1 ≤ 12
      · rw [if_pos h13] at hq; simp [Whole.joint] at hq
      · rw [if_neg h13] at hq
        have hi : i = 12 := by omega
        subst hi
        simp only [Whole.joint, List.nil_append, List.cons.injEq, and_true] at hq
        subst hq
        simp only [Nat.reduceAdd, Nat.reduceLeDiff, if_false, if_true]
        rw [e1, e2, h1, h2]
        exact ⟨⟨hp', rfl, rfl⟩, e3⟩
    · rw [h2] at e1; cases e1
  · rw [if_neg h12] at h
    by_cases h13 : i = 13
    · rw [if_pos h13] at h
      subst h13
      obtain ⟨hp, h1, h2⟩ := h
      obtain ⟨q1, q2, q3, q4⟩ := phase13 mac peer u r key res pt hp
      rcases whole_plain hs [] with ⟨hj, e1, e2, e3, hx⟩ | ⟨m, k, hk, hj, e1, e2, e3⟩ | ⟨m, e1, _⟩
      · exact absurd q4 (hx q1 q2)
      · obtain ⟨k', q2⟩ := q2
        simp only [Whole.joint] at q2
        rw [hk] at q2
        cases q2
      · rw [h2] at e1; cases e1
    · rw [if_neg h13] at h
      by_cases h14 : i = 14
      · rw [if_pos h14] at h
        subst h14
        obtain ⟨hp, h1, h2⟩ := h
        obtain ⟨q1, q2, q3, q4⟩ := phase13 mac peer u r key res pt hp
        rcases whole_plain hs [FwMessage.newOpen peer pt res.port] with ⟨hj, e1, e2, e3, hx⟩ | ⟨m, k, hk, hj, e1, e2, e3⟩ | ⟨m, e1, e2, e3, hj⟩
        · exact absurd q4 (hx q1 q2)
        · obtain ⟨k', q2⟩ := q2
          simp only [Whole.joint] at q2
          rw [hk] at q2
          cases q2
        · rw [h2] at e1
          injection e1 with e1 e4
          simp only [Nat.reduceAdd, Nat.reduceLeDiff, if_false, Nat.reduceSub, Nat.reduceEqDiff]
          refine ⟨⟨phase_step mac peer u r key res pt hp (hj (by rw [← e1]; rfl)), by rw [e2, h1], e4.symm⟩, e3⟩
      · rw [if_neg h14] at h
        obtain ⟨hp, h1, h2⟩ := h
        obtain ⟨j, rfl⟩ : ∃ j, i = j + 15 := ⟨i - 15, by omega⟩
        simp only [show ¬ j + 15 + 1 ≤ 12 by omega, show ¬ j + 15 + 1 = 13 by omega, show ¬ j + 15 + 1 = 14 by omega, if_false,
          Nat.add_sub_cancel]
        rw [show j + 15 - 1 = j + 14 by omega] at hp
        rcases whole_plain hs [FwMessage.newOpen peer pt res.port] with ⟨hj, e1, e2, e3, hx⟩ | ⟨m, k, hk, hj, e1, e2, e3⟩ | ⟨m, e1, e2, e3, hj⟩
        · exact ⟨⟨phase_step mac peer u r key res pt hp hj, by rw [e1, h1], by rw [e2, h2]⟩, e3⟩
        · have := phase_reqs mac peer u r key res pt (phase_step mac peer u r key res pt hp hj)
          rw [if_neg (by omega)] at this
          simp [Whole.joint] at this
        · rw [h2] at e1; cases e1

/-- letmeinfwd handles the session's message: it is the request, and the next position follows if the answer is Ack. -/
theorem wAt_serve {fconf : Config} {i : Nat} {W W' : Whole} {m : FwMessage} {now : Nat} (h : WAt mac peer u r key res pt i W)
    (hs : WStep fconf W (.serve m now) W') :
    i = 13 ∧ m = FwMessage.newOpen peer pt res.port ∧ W'.fwd = (fwdStep fconf W.fwd (.request (.msg m) now true)).2 ∧
      ((fwdStep fconf W.fwd (.request (.msg m) now true)).1 = some FwMessage.newAck → WAt mac peer u r key res pt (i + 1) W') := by
  cases hs with
  | @serve c s a b _ x y f =>
    unfold WAt at h
    simp only at h
    by_cases h12 : i ≤ 12
    · rw [if_pos h12] at h; cases h.2.1
    · rw [if_neg h12] at h
      by_cases h13 : i = 13
      · rw [if_pos h13] at h
        subst h13
        obtain ⟨hp, h1, h2⟩ := h
        injection h1 with h1 h1'
        subst h1 h1' h2
        refine ⟨rfl, rfl, rfl, fun hack => ?_⟩
        unfold WAt
        simp only [Nat.reduceAdd, Nat.reduceLeDiff, if_false, if_true, Nat.reduceEqDiff]
        exact ⟨hp, trivial, by rw [hack]; rfl⟩
      · rw [if_neg h13] at h
        by_cases h14 : i = 14
        · rw [if_pos h14] at h; cases h.2.1
        · rw [if_neg h14] at h; cases h.2.1

/-- There is a next step until the end. -/
theorem wAt_progress {fconf : Config} {i : Nat} {W : Whole} (h : WAt mac peer u r key res pt i W) (hi : i < 18)
    (hr8 : ∃ s : Arr 8, secureRandom 8 (some s) = .ok s) (hr32 : ∃ s : Arr 32, secureRandom 32 (some s) = .ok s) :
    ∃ e W', WEv.own e = true ∧ WStep fconf W e W' := by
  have lift : ∀ (reqs : List FwMessage) (J' : Joint), JStep (W.joint reqs) J' → (∀ k, W.server ≠ .act .fwRecv k) →
      ∃ e W', WEv.own e = true ∧ WStep fconf W e W' := by
    intro reqs J' hj hne
    obtain ⟨c, s, a, b, x, y, f⟩ := W
    simp only [Whole.joint] at hj
    cases hj with
    | cConnect => exact ⟨_, _, rfl, .cConnect⟩
    | cRand salt hr => exact ⟨_, _, rfl, .cRand salt hr⟩
    | cSend => exact ⟨_, _, rfl, .cSend⟩
    | cRecv => exact ⟨_, _, rfl, .cRecv⟩
    | sRand8 salt hr => exact ⟨_, _, rfl, .sRand8 salt hr⟩
    | sRand32 z hr => exact ⟨_, _, rfl, .sRand32 z hr⟩
    | sSend => exact ⟨_, _, rfl, .sSend⟩
    | sRecv => exact ⟨_, _, rfl, .sRecv⟩
    | sFwConnect => exact ⟨_, _, rfl, .sFwConnect⟩
    | sFwSend => exact ⟨_, _, rfl, .sFwSend⟩
    | sFwRecv ack h => exact absurd rfl (hne _)
  have hack : ∃ m : FwMessage, m.operation = .Ack := ⟨FwMessage.newAck, rfl⟩
  unfold WAt at h
  simp only at h
  by_cases h12 : i ≤ 12
  · rw [if_pos h12] at h
    obtain ⟨J', hj⟩ := phase_progress mac peer u r key res pt h.1 (by omega) hr8 hr32 hack
    refine lift [] J' hj (fun k hk => ?_)
    have hk' : (W.joint []).server = .act .fwRecv k := hk
    have hj2 : JStep (W.joint []) ⟨W.client, k (.msg FwMessage.newAck), W.c2s, W.s2c, []⟩ := by
      show JStep ⟨W.client, W.server, W.c2s, W.s2c, []⟩ _
      rw [hk]
      exact .sFwRecv _ rfl
    -- the session waits for letmeinfwd in phase 13 only
    have h0 := h.1
    unfold Phase at h0
    simp only at h0
    split at h0
    all_goals first
      | exact h0.elim
      | omega
      | (obtain ⟨_, ⟨_, e, _⟩, _⟩ := h0; rw [hk'] at e; cases e)
      | (obtain ⟨_, _, ⟨_, e, _⟩, _⟩ := h0; rw [hk'] at e; cases e)
      | (obtain ⟨_, _, _, ⟨_, e, _⟩, _⟩ := h0; rw [hk'] at e; cases e)
  · rw [if_neg h12] at h
    obtain ⟨c, s, a, b, x, y, f⟩ := W
    by_cases h13 : i = 13
    · rw [if_pos h13] at h
      obtain ⟨_, h1, _⟩ := h
      simp only at h1
      subst h1
      exact ⟨_, _, rfl, .serve 0⟩
    · rw [if_neg h13] at h
      by_cases h14 : i = 14
      · rw [if_pos h14] at h
        obtain ⟨hp, _, h2⟩ := h
        obtain ⟨_, ⟨k, q2⟩, _⟩ := phase13 mac peer u r key res pt hp
        simp only [Whole.joint] at h2 q2
        subst h2 q2
        exact ⟨_, _, rfl, .sFwRecv⟩
      · rw [if_neg h14] at h
        obtain ⟨J', hj⟩ := phase_progress mac peer u r key res pt h.1 (by omega) hr8 hr32 hack
        refine lift _ J' hj (fun k hk => ?_)
        have h0 := h.1
        obtain rfl | rfl | rfl : i = 15 ∨ i = 16 ∨ i = 17 := by omega
        · obtain ⟨_, ⟨_, e, _⟩, _⟩ := h0; simp only [Whole.joint] at e hk; rw [hk] at e; cases e
        · obtain ⟨_, _, ⟨_, e, _⟩, _⟩ := h0; simp only [Whole.joint] at e hk; rw [hk] at e; cases e
        · obtain ⟨_, _, e, _⟩ := h0; simp only [SP10, Whole.joint] at e hk; rw [hk] at e; cases e

end

theorem wholeOps_append (a b : List WEv) : wholeOps (a ++ b) = wholeOps a ++ wholeOps b := by
  simp only [wholeOps, List.filterMap_append]

/-- letmeinfwd follows its operations. -/
theorem whole_fwd {fconf : Config} {W W' : Whole} {evs : List WEv} (h : WSteps fconf W evs W') :
    W'.fwd = (fwdRun fconf W.fwd (wholeOps evs)).2 := by
  induction h with
  | refl => rfl
  | @step W1 W2 evs e h hs ih =>
    rw [wholeOps_append, fwdRun_append, ← ih]
    cases hs <;> rfl

/-- Only a termination ends in the phase `stopped`. -/
theorem not_stopped_step {fconf : Config} {s : FwdState} {op : FwdOp} (hs : s.phase ≠ .stopped) (ho : ∀ ok, op ≠ .terminate ok) :
    (fwdStep fconf s op).2.phase ≠ .stopped := by
  obtain ⟨phase, fw, k⟩ := s
  cases op with
  | foreign => exact hs
  | reorder => exact hs
  | terminate ok => exact absurd rfl (ho ok)
  | request rx now ok =>
    simp only at hs
    cases phase <;> simp only [fwdStep] <;> first | (split <;> simp; done) | (simp; done) | exact absurd rfl hs
  | maintain now env =>
    simp only at hs
    cases phase <;> simp only [fwdStep] <;> first | (split <;> simp; done) | (simp; done) | exact absurd rfl hs

theorem not_stopped_run {fconf : Config} {s : FwdState} {ops : List FwdOp} (hs : s.phase ≠ .stopped)
    (ho : ∀ ok, FwdOp.terminate ok ∉ ops) : (fwdRun fconf s ops).2.phase ≠ .stopped := by
  induction ops generalizing s with
  | nil => exact hs
  | cons op rest ih =>
    refine ih (not_stopped_step hs (fun ok h => ?_)) (fun ok h => ho ok (by simp [h]))
    exact ho ok (by simp [h])

end Letmein
