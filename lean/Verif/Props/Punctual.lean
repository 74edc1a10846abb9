import Verif.Model.Punctual
import Verif.Props.Whole

/-!
# Property C132: time limits do not strike when everybody is prompt
-/

namespace Letmein.Spec

open Letmein

/-- Somebody can take a step of the knock. -/
def Timed.canGo (fconf : Config) (T : Timed) : Prop := ∃ e W', WEv.own e = true ∧ WStep fconf T.W e W'

/-- A run in which everybody is prompt: while somebody can take a step of the knock, no more than `d` passes from one to the next. -/
inductive PromptRun (fconf : Config) (tc ts d : Duration) : Timed → List (Nat × TEv) → Timed → Prop where
  | refl (T) : PromptRun fconf tc ts d T [] T
  | step {T T' T'' evs t e} : PromptRun fconf tc ts d T evs T' → TimedStep fconf tc ts T' t e T'' → (Timed.canGo fconf T' → t ≤ T'.last + d) →
      PromptRun fconf tc ts d T (evs ++ [(t, e)]) T''

/-- The steps without the time limits. -/
def untimed (evs : List (Nat × TEv)) : List WEv := evs.filterMap fun x => match x.2 with | .step e => some e | _ => none

end Letmein.Spec

namespace Letmein.Props

open Letmein Prog Spec

theorem PromptRun.run {fconf : Config} {tc ts d : Duration} {T T' : Timed} {evs : List (Nat × TEv)} (h : PromptRun fconf tc ts d T evs T') :
    TimedSteps fconf tc ts T evs T' := by
  induction h with
  | refl => exact .refl _
  | step _ hs _ ih => exact .step ih hs

/-- After how many steps the client has made its last one, when the knock has made `i`. -/
def cIdx (i : Nat) : Nat := if i ≤ 3 then i else if i ≤ 7 then 3 else if i ≤ 10 then i else if i ≤ 17 then 10 else i

/-- The same for the session. -/
def sIdx (i : Nat) : Nat := if i ≤ 3 then 0 else if i ≤ 7 then i else if i ≤ 10 then 7 else if i ≤ 13 then i else if i ≤ 14 then 13 else if i ≤ 17 then i else 17

section
variable {mac : MacFn} {peer : IpAddr} {u : UserId} {r : ResourceId} {key : Key} {res : Resource} {pt : PortType}

/-- What kind of action the client is at. -/
def cKind (i : Nat) (p : Prog Unit) : Prop :=
  match i with
  | 0 => ∃ k, p = .act .connect k
  | 1 | 8 => ∃ k, p = .act .rand8 k
  | 2 | 9 => ∃ m k, p = .act (.send m) k
  | 18 => p = .ret (.ok ())
  | _ => ∃ k, p = .act .recv k

/-- What kind of action the session is at. -/
def sKind (i : Nat) (p : Prog Unit) : Prop :=
  match i with
  | 0 | 1 | 2 | 3 | 7 | 8 | 9 | 10 => ∃ k, p = .act .recv k
  | 4 | 15 => ∃ k, p = .act .rand8 k
  | 5 => ∃ k, p = .act .rand32 k
  | 6 | 16 => ∃ m k, p = .act (.send m) k
  | 11 => ∃ k, p = .act .fwConnect k
  | 12 => ∃ m k, p = .act (.fwSend m) k
  | 13 | 14 => ∃ k, p = .act .fwRecv k
  | _ => p = .ret (.ok ())

theorem wAt_le {i : Nat} {W : Whole} (h : WAt mac peer u r key res pt i W) : i ≤ 18 := by
  by_cases h14 : i ≤ 14
  · omega
  · unfold WAt at h
    simp only [if_neg (show ¬ i ≤ 12 by omega), if_neg (show ¬ i = 13 by omega), if_neg (show ¬ i = 14 by omega)] at h
    have := phase_le mac peer u r key res pt h.1
    omega

theorem wAt_kinds {i : Nat} {W : Whole} (h : WAt mac peer u r key res pt i W) : cKind i W.client ∧ sKind i W.server := by
  have hi := wAt_le h
  unfold WAt at h
  have hcases : i = 0 ∨ i = 1 ∨ i = 2 ∨ i = 3 ∨ i = 4 ∨ i = 5 ∨ i = 6 ∨ i = 7 ∨ i = 8 ∨ i = 9 ∨ i = 10 ∨ i = 11 ∨ i = 12 ∨ i = 13 ∨ i = 14 ∨ i = 15 ∨ i = 16 ∨ i = 17 ∨ i = 18 := by omega
  rcases hcases with rfl | rfl | rfl | rfl | rfl | rfl | rfl | rfl | rfl | rfl | rfl | rfl | rfl | rfl | rfl | rfl | rfl | rfl | rfl <;>
    simp [Phase, Whole.joint, CP0, CP1, CP2, CP3, CP4, CP5, CP6, CP7, SP0, SP1, SP2, SP3, SP4, SP5, SP6, SP7, SP8, SP9, SP10, cKind, sKind] at h ⊢ <;> grind

/-- The client has moved. -/
theorem client_moved {i : Nat} {W W' : Whole} (h : WAt mac peer u r key res pt i W) (h' : WAt mac peer u r key res pt (i + 1) W') (hs : W'.server = W.server)
    (h13 : i ≠ 13) : cIdx (i + 1) = i + 1 ∧ sIdx (i + 1) = sIdx i := by
  have hi := wAt_le h'
  have h1 := (wAt_kinds h).2
  have h2 := (wAt_kinds h').2
  rw [hs] at h2
  have hcases : i = 0 ∨ i = 1 ∨ i = 2 ∨ i = 3 ∨ i = 4 ∨ i = 5 ∨ i = 6 ∨ i = 7 ∨ i = 8 ∨ i = 9 ∨ i = 10 ∨ i = 11 ∨ i = 12 ∨ i = 14 ∨ i = 15 ∨ i = 16 ∨ i = 17 := by omega
  rcases hcases with rfl | rfl | rfl | rfl | rfl | rfl | rfl | rfl | rfl | rfl | rfl | rfl | rfl | rfl | rfl | rfl | rfl <;>
    simp [sKind, cIdx, sIdx] at h1 h2 ⊢ <;> grind

/-- The session has moved. -/
theorem session_moved {i : Nat} {W W' : Whole} (h : WAt mac peer u r key res pt i W) (h' : WAt mac peer u r key res pt (i + 1) W') (hs : W'.client = W.client)
    (h13 : i ≠ 13) : sIdx (i + 1) = i + 1 ∧ cIdx (i + 1) = cIdx i := by
  have hi := wAt_le h'
  have h1 := (wAt_kinds h).1
  have h2 := (wAt_kinds h').1
  rw [hs] at h2
  have hcases : i = 0 ∨ i = 1 ∨ i = 2 ∨ i = 3 ∨ i = 4 ∨ i = 5 ∨ i = 6 ∨ i = 7 ∨ i = 8 ∨ i = 9 ∨ i = 10 ∨ i = 11 ∨ i = 12 ∨ i = 14 ∨ i = 15 ∨ i = 16 ∨ i = 17 := by omega
  rcases hcases with rfl | rfl | rfl | rfl | rfl | rfl | rfl | rfl | rfl | rfl | rfl | rfl | rfl | rfl | rfl | rfl | rfl <;>
    simp [cKind, cIdx, sIdx] at h1 h2 ⊢ <;> grind

/-- When the request is with letmeinfwd, neither client nor session can take a step. -/
theorem exchange_not13 {fconf : Config} {i : Nat} {W W' : Whole} (hat : WAt mac peer u r key res pt i W) (hs : WStep fconf W .exchange W') : i ≠ 13 := by
  rintro rfl
  unfold WAt at hat
  simp only [Nat.reduceLeDiff, if_false, if_true] at hat
  obtain ⟨hp, t1, t2⟩ := hat
  obtain ⟨q1, q2, q3, q4⟩ := phase13 mac peer u r key res pt hp
  rcases whole_plain hs [] with ⟨_, _, _, _, hx⟩ | ⟨m, k, hk, _⟩ | ⟨m, e1, _⟩
  · exact hx q1 q2 q4
  · obtain ⟨k', q2⟩ := q2
    simp only [Whole.joint] at q2
    rw [hk] at q2
    cases q2
  · rw [t2] at e1; cases e1

end

theorem untimed_append (evs : List (Nat × TEv)) (t : Nat) (e : TEv) : untimed (evs ++ [(t, e)]) = untimed evs ++ (match e with | .step e => [e] | _ => []) := by
  unfold untimed
  rw [List.filterMap_append]
  cases e <;> rfl

theorem waited {last since i j d t : Nat} (h : last ≤ since + (i - j) * d) (ht : t ≤ last + d) (hj : j ≤ i) : t ≤ since + (i + 1 - j) * d := by
  have : (i + 1 - j) * d = (i - j) * d + d := by rw [show i + 1 - j = (i - j) + 1 by omega, Nat.succ_mul]
  omega

theorem cIdx_le (i : Nat) : cIdx i ≤ i := by unfold cIdx; split <;> (try split) <;> (try split) <;> (try split) <;> omega
theorem sIdx_le (i : Nat) : sIdx i ≤ i := by unfold sIdx; split <;> (try split) <;> (try split) <;> (try split) <;> (try split) <;> (try split) <;> omega
theorem cIdx_wait {i : Nat} (h : i < 18) : i + 1 - cIdx i ≤ 8 := by unfold cIdx; split <;> (try split) <;> (try split) <;> (try split) <;> omega
theorem sIdx_wait {i : Nat} (h : i < 18) : i + 1 - sIdx i ≤ 4 := by unfold sIdx; split <;> (try split) <;> (try split) <;> (try split) <;> (try split) <;> (try split) <;> omega

/-- What is known about a prompt run. -/
structure Punctual (fconf : Config) (d t0 : Nat) (W0 : Whole) (evs : List (Nat × TEv)) (T : Timed) : Prop where
  steps : ∀ x ∈ evs, ∃ e, x.2 = .step e
  run : WSteps fconf W0 (untimed evs) T.W
  total : T.last ≤ t0 + ownSteps (untimed evs) * d
  client : T.last ≤ T.cSince + (ownSteps (untimed evs) - cIdx (ownSteps (untimed evs))) * d
  session : T.last ≤ T.sSince + (ownSteps (untimed evs) - sIdx (ownSteps (untimed evs))) * d
  start : t0 ≤ T.now
  times : ∀ op ∈ wholeOps (untimed evs), ∀ t, FwdOp.time op = some t → t0 ≤ t ∧ t ≤ T.now

theorem punctual {mac : MacFn} {sconf fconf : Config} {peer : IpAddr} {u : UserId} {r : ResourceId} {key : Key} {res : Resource} {pt : PortType}
    (h0 : SP0 mac peer u r key res pt (session mac sconf peer)) {n : NftNames} (hn : ChainOf fconf n)
    (hc : CanOpen fconf n peer res.port) {k0 : Kernel} {startOk : Bool} {sI : FwdState} (hstart : fwdStart fconf k0 startOk = some sI)
    {before : List FwdOp} (hb : (fwdRun fconf sI before).2.phase ≠ .stopped) {tc ts d t0 : Nat} (htc : 8 * d < tc) (hts : 4 * d < ts)
    {evs : List (Nat × TEv)} {T : Timed}
    (hrun : PromptRun fconf tc ts d (Timed.init (Whole.init mac sconf peer u r key (fwdRun fconf sI before).2) t0) evs T)
    (hfair : Fair fconf n sI (before ++ wholeOps (untimed evs))) (hterm : ∀ ok, FwdOp.terminate ok ∉ wholeOps (untimed evs)) :
    Punctual fconf d t0 (Whole.init mac sconf peer u r key (fwdRun fconf sI before).2) evs T := by
  generalize hi : Timed.init (Whole.init mac sconf peer u r key (fwdRun fconf sI before).2) t0 = T0 at hrun
  induction hrun with
  | refl =>
    subst hi
    exact ⟨by simp, .refl _, Nat.le_add_right _ _, Nat.le_add_right _ _, Nat.le_add_right _ _, Nat.le_refl _, by simp [untimed, wholeOps]⟩
  | @step T1 T2 evs t e hr hs hp ih =>
    have hsub : ∃ l, wholeOps (untimed (evs ++ [(t, e)])) = wholeOps (untimed evs) ++ l := by
      rw [untimed_append]
      exact ⟨_, by rw [wholeOps, List.filterMap_append]; rfl⟩
    obtain ⟨l, hl⟩ := hsub
    have hfair1 : Fair fconf n sI (before ++ wholeOps (untimed evs)) := by
      rw [hl, ← List.append_assoc] at hfair
      exact (fair_append hfair).1
    have hI := ih hfair1 (fun ok h => hterm ok (by rw [hl]; simp [h]))
    have hat := (whole_inv h0 hn hc hstart hb hI.run hfair1 (fun ok h => hterm ok (by rw [hl]; simp [h]))).1
    have go : ownSteps (untimed evs) < 18 → t ≤ T1.last + d := fun h => hp (wAt_progress mac peer u r key res pt hat h ⟨goodSalt, by decide⟩ ⟨goodNonce, by decide⟩)
    have next : ∀ e' W', WStep fconf T1.W e' W' → e = .step e' → WAt mac peer u r key res pt (ownSteps (untimed evs ++ [e'])) W' := by
      intro e' W' hw he
      subst he
      rw [untimed_append] at hfair hterm
      exact (whole_inv h0 hn hc hstart hb (.step hI.run hw) hfair hterm).1
    generalize hk : ownSteps (untimed evs) = k at *
    obtain ⟨a1, a2, a3, a4, a5, a6, a7⟩ := hI
    rw [hk] at a3 a4 a5
    have stp : ∀ e', e = .step e' → ∀ x ∈ evs ++ [(t, e)], ∃ e, x.2 = TEv.step e := by
      rintro e' rfl x hx
      rcases List.mem_append.1 hx with hx | hx
      · exact a1 x hx
      · rw [List.mem_singleton.1 hx]; exact ⟨e', rfl⟩
    have tot : ∀ {s j : Nat}, j = k + 1 → t ≤ T1.last + d → T1.last ≤ s + k * d → t ≤ s + j * d := by
      intro s j hj h1 h2
      subst hj
      rw [Nat.succ_mul]
      omega
    cases hs with
    | @client W' hnow hw hsv =>
      have hat' := next _ _ hw rfl
      have hown : ownSteps (untimed (evs ++ [(t, .step .exchange)])) = k + 1 := by rw [untimed_append, ownSteps_append, hk]; rfl
      rw [ownSteps_append, hk] at hat'
      have hlt : k < 18 := wAt_le hat'
      obtain ⟨m1, m2⟩ := client_moved hat hat' hsv (exchange_not13 hat hw)
      refine ⟨stp _ rfl, by rw [untimed_append]; exact .step a2 hw, ?_, ?_, ?_, Nat.le_trans a6 hnow, ?_⟩
      · exact tot hown (go hlt) a3
      · exact Nat.le_add_right _ _
      · simp only [hown]
        rw [m2]
        exact waited a5 (go hlt) (sIdx_le k)
      · intro op ho at' hat
        rw [untimed_append, wholeOps_append] at ho
        rcases List.mem_append.1 ho with ho | ho
        · exact ⟨(a7 op ho at' hat).1, Nat.le_trans (a7 op ho at' hat).2 hnow⟩
        · simp [wholeOps, WEv.fwdOp] at ho
    | @session W' hnow hw hsv =>
      have hat' := next _ _ hw rfl
      have hown : ownSteps (untimed (evs ++ [(t, .step .exchange)])) = k + 1 := by rw [untimed_append, ownSteps_append, hk]; rfl
      rw [ownSteps_append, hk] at hat'
      have hlt : k < 18 := wAt_le hat'
      obtain ⟨m1, m2⟩ := session_moved hat hat' hsv (exchange_not13 hat hw)
      refine ⟨stp _ rfl, by rw [untimed_append]; exact .step a2 hw, ?_, ?_, ?_, Nat.le_trans a6 hnow, ?_⟩
      · exact tot hown (go hlt) a3
      · simp only [hown]
        rw [m2]
        exact waited a4 (go hlt) (cIdx_le k)
      · exact Nat.le_add_right _ _
      · intro op ho at' hat
        rw [untimed_append, wholeOps_append] at ho
        rcases List.mem_append.1 ho with ho | ho
        · exact ⟨(a7 op ho at' hat).1, Nat.le_trans (a7 op ho at' hat).2 hnow⟩
        · simp [wholeOps, WEv.fwdOp] at ho
    | @serve m W' hnow hw =>
      have hat' := next _ _ hw rfl
      have hown : ownSteps (untimed (evs ++ [(t, .step (.serve m t))])) = k + 1 := by rw [untimed_append, ownSteps_append, hk]; rfl
      rw [ownSteps_append, hk] at hat'
      have hlt : k < 18 := wAt_le hat'
      have h13 := (wAt_serve mac peer u r key res pt hat hw).1
      refine ⟨stp _ rfl, by rw [untimed_append]; exact .step a2 hw, ?_, ?_, ?_, Nat.le_trans a6 hnow, ?_⟩
      · exact tot hown (go hlt) a3
      · simp only [hown]
        have := waited a4 (go hlt) (cIdx_le k)
        rw [h13] at this ⊢
        exact this
      · simp only [hown]
        have := waited a5 (go hlt) (sIdx_le k)
        rw [h13] at this ⊢
        exact this
      · intro op ho at' hat
        rw [untimed_append, wholeOps_append] at ho
        simp only [List.mem_append] at ho
        rcases ho with ho | ho
        · exact ⟨(a7 op ho at' hat).1, Nat.le_trans (a7 op ho at' hat).2 hnow⟩
        · simp [wholeOps, WEv.fwdOp] at ho
          subst ho
          injection hat with hat
          subst hat
          exact ⟨Nat.le_trans a6 hnow, Nat.le_refl _⟩
    | @other op W' hnow hcl hw =>
      have hown : ownSteps (untimed (evs ++ [(t, .step (.other op))])) = k := by rw [untimed_append, ownSteps_append, hk]; rfl
      refine ⟨stp _ rfl, by rw [untimed_append]; exact .step a2 hw, by rw [hown]; exact a3, by rw [hown]; exact a4, by rw [hown]; exact a5, Nat.le_trans a6 hnow, ?_⟩
      intro op' ho at' hat
      rw [untimed_append, wholeOps_append] at ho
      simp only [List.mem_append] at ho
      rcases ho with ho | ho
      · exact ⟨(a7 op' ho at' hat).1, Nat.le_trans (a7 op' ho at' hat).2 hnow⟩
      · simp [wholeOps, WEv.fwdOp] at ho
        subst ho
        have : at' = t := hcl at' (by cases op' <;> first | exact hat | cases hat)
        subst this
        exact ⟨Nat.le_trans a6 hnow, Nat.le_refl _⟩
    | @clientTimeout p hnow hlim hp' =>
      exfalso
      have hk18 : k ≤ 18 := wAt_le hat
      by_cases hlt : k < 18
      · have h1 := waited a4 (go hlt) (cIdx_le k)
        have h2 := Nat.mul_le_mul_right d (cIdx_wait hlt)
        exact absurd htc (Nat.not_lt.2 (Nat.le_of_add_le_add_left (Nat.le_trans hlim (Nat.le_trans h1 (Nat.add_le_add_left h2 _)))))
      · have hc := (wAt_kinds hat).1
        rw [show k = 18 by omega] at hc
        rw [show T1.W.client = .ret (.ok ()) from hc] at hp'
        cases hp'
    | @sessionTimeout p hnow hlim hp' =>
      exfalso
      have hk18 : k ≤ 18 := wAt_le hat
      by_cases hlt : k < 18
      · have h1 := waited a5 (go hlt) (sIdx_le k)
        have h2 := Nat.mul_le_mul_right d (sIdx_wait hlt)
        exact absurd hts (Nat.not_lt.2 (Nat.le_of_add_le_add_left (Nat.le_trans hlim (Nat.le_trans h1 (Nat.add_le_add_left h2 _)))))
      · have hc := (wAt_kinds hat).2
        rw [show k = 18 by omega] at hc
        rw [show T1.W.server = .ret (.ok ()) from hc] at hp'
        cases hp'

/-- **C132**. An honest knock as in C79, with time. While somebody can take a step of the knock, at most `d` passes from one step to the next; the client's control timeout is more than eight times as long, the
server's more than four times. Then no time limit strikes; the knock takes at most 18 steps, the last of them no later than `18 * d` after the start; as long as it isn't complete somebody can take a step of it; and when it is,
client and session have succeeded, and the port is open for the client's address as long as the lease time has not passed since the start. -/
theorem C132_prompt_knock_succeeds (mac : MacFn) (sconf fconf : Config) (peer : IpAddr) (u : UserId) (r : ResourceId) (key : Key) (res : Resource)
    (hk : sconf.key u = some key) (hg : Granted sconf u r res) (hp : res.tcp = true ∨ res.udp = true)
    (n : NftNames) (hn : ChainOf fconf n) (hc : CanOpen fconf n peer res.port)
    (k0 : Kernel) (startOk : Bool) (sI : FwdState) (hstart : fwdStart fconf k0 startOk = some sI)
    (before : List FwdOp) (hb : (fwdRun fconf sI before).2.phase ≠ .stopped)
    (tc d t0 : Duration) (htc : 8 * d < tc) (hts : 4 * d < sconf.controlTimeout) (evs : List (Nat × TEv)) (T : Timed)
    (hrun : PromptRun fconf tc sconf.controlTimeout d (Timed.init (Whole.init mac sconf peer u r key (fwdRun fconf sI before).2) t0) evs T)
    (hfair : Fair fconf n sI (before ++ wholeOps (untimed evs))) (hterm : ∀ ok, FwdOp.terminate ok ∉ wholeOps (untimed evs)) :
    (∀ x ∈ evs, x.2 ≠ .clientTimeout ∧ x.2 ≠ .sessionTimeout) ∧ ownSteps (untimed evs) ≤ 18 ∧ T.last ≤ t0 + 18 * d ∧
    (Timed.canGo fconf T ∨
      (ownSteps (untimed evs) = 18 ∧ T.W.client = .ret (.ok ()) ∧ T.W.server = .ret (.ok ()) ∧ (T.now < t0 + fconf.nftTimeout → OpenFor n T.W.fwd.kernel peer res))) := by
  obtain ⟨pt, hpt⟩ : ∃ pt, res.portType = .ok pt := by
    unfold Resource.portType
    cases h1 : res.tcp <;> cases h2 : res.udp <;> simp_all
  have hu : res.containsUser u = true := by
    unfold Resource.containsUser
    rcases hg.allowed with h | h <;> simp [h]
  have h0 := server_SP0 mac sconf peer u r key res pt hk hg.configured hu hg.notControl hpt
  have hI := punctual h0 hn hc hstart hb htc hts hrun hfair hterm
  obtain ⟨h1, h2⟩ := C79_honest_knock_opens mac sconf fconf peer u r key res hk hg hp n hn hc k0 startOk sI hstart before hb _ _ hI.run hfair hterm
  refine ⟨?_, h1, Nat.le_trans hI.total (Nat.add_le_add_left (Nat.mul_le_mul_right d h1) _), h2.imp id fun ⟨a, b, c, e⟩ => ⟨a, b, c, fun hnow => e ⟨t0, fun op ho t ht => ?_⟩⟩⟩
  · intro x hx
    obtain ⟨e, he⟩ := hI.steps x hx
    rw [he]
    exact ⟨by simp, by simp⟩
  · have := hI.times op ho t ht
    omega

/-! ### The bounds are exact -/

/-- Whenever receiving fails, the program ends with an error. -/
def FailStop {α : Type} : Prog α → Prop
  | .ret _ => True
  | .act a k => (∀ x, FailStop (k x)) ∧ ∀ k', (Prog.act a k : Prog α) = .act .recv k' → k' .fail = .ret .err

theorem failStop_bind {α β : Type} {p : Prog α} {f : α → Prog β} (h : FailStop p) (hf : ∀ a, FailStop (f a)) : FailStop (p >>= f) := by
  induction p with
  | ret r =>
    cases r with
    | ok a => exact hf a
    | err => trivial
    | panic => trivial
  | act a k ih =>
    refine ⟨fun x => ih x (h.1 x), fun k' hk => ?_⟩
    cases a with
    | recv =>
      have hx := h.2 k rfl
      injection hk with _ hk
      subst hk
      show Prog.bind (k .fail) f = _
      rw [hx]
      rfl
    | _ => cases hk

theorem failStop_newMessage (op : Operation) (u : UserId) (r : ResourceId) : FailStop (newMessage op u r) := by
  unfold newMessage
  exact ⟨fun x => by trivial, fun k' hk => by cases hk⟩

theorem failStop_clientSend (m : Message) : FailStop (clientSendMsg m) := ⟨fun _ => trivial, fun k' hk => by cases hk⟩

theorem failStop_recvSpecific (op : Operation) : FailStop (recvSpecificMsg op) := by
  refine ⟨fun x => ?_, fun k' hk => by injection hk with _ hk; subst hk; rfl⟩
  cases x with
  | msg m => dsimp only; split <;> (try split) <;> trivial
  | _ => trivial

theorem failStop_knock (mac : MacFn) (u : UserId) (r : ResourceId) (key : Key) : FailStop (knockSequence mac u r key) := by
  unfold knockSequence
  refine failStop_bind ⟨fun _ => trivial, fun k' hk => by cases hk⟩ fun _ => ?_
  refine failStop_bind (failStop_newMessage ..) fun _ => ?_
  refine failStop_bind (p := Prog.ret _) trivial fun _ => ?_
  refine failStop_bind (failStop_clientSend _) fun _ => ?_
  refine failStop_bind (failStop_recvSpecific _) fun _ => ?_
  refine failStop_bind (p := Prog.ret _) trivial fun _ => ?_
  refine failStop_bind (failStop_newMessage ..) fun _ => ?_
  refine failStop_bind (p := Prog.ret _) trivial fun _ => ?_
  refine failStop_bind (failStop_clientSend _) fun _ => ?_
  exact failStop_bind (failStop_recvSpecific _) fun _ => trivial

theorem failStop_step {fconf : Config} {W W' : Whole} {e : WEv} (h : FailStop W.client) (hs : WStep fconf W e W') : FailStop W'.client := by
  cases hs <;> first | exact h | exact h.1 _

theorem exchange_one {fconf : Config} {W W' : Whole} (hs : WStep fconf W .exchange W') : W'.server = W.server ∨ W'.client = W.client := by
  cases hs <;> first | exact .inl rfl | exact .inr rfl

/-- There is a run with a step every `d`. -/
theorem slowest_run {mac : MacFn} {sconf fconf : Config} {peer : IpAddr} {u : UserId} {r : ResourceId} {key : Key} {res : Resource} {pt : PortType}
    (h0 : SP0 mac peer u r key res pt (session mac sconf peer)) {n : NftNames} (hn : ChainOf fconf n)
    (hc : CanOpen fconf n peer res.port) {k0 : Kernel} {startOk : Bool} {sI : FwdState} (hstart : fwdStart fconf k0 startOk = some sI)
    {before : List FwdOp} (hb : (fwdRun fconf sI before).2.phase ≠ .stopped) (hfair : Fair fconf n sI before) (tc ts d t0 : Nat) (j : Nat) (hj : j ≤ 18) :
    ∃ evs T, PromptRun fconf tc ts d (Timed.init (Whole.init mac sconf peer u r key (fwdRun fconf sI before).2) t0) evs T ∧
      (∀ x ∈ evs, ∃ e, x.2 = .step e ∧ WEv.own e = true) ∧ WSteps fconf (Whole.init mac sconf peer u r key (fwdRun fconf sI before).2) (untimed evs) T.W ∧
      ownSteps (untimed evs) = j ∧ WAt mac peer u r key res pt j T.W ∧ FailStop T.W.client ∧
      T.now = t0 + j * d ∧ T.last = t0 + j * d ∧ T.cSince = t0 + cIdx j * d ∧ T.sSince = t0 + sIdx j * d := by
  have own : ∀ evs : List (Nat × TEv), (∀ x ∈ evs, ∃ e, x.2 = .step e ∧ WEv.own e = true) → ∀ e ∈ untimed evs, WEv.own e = true := by
    intro evs h e he
    obtain ⟨x, hx, heq⟩ := List.mem_filterMap.1 he
    obtain ⟨e', h1, h2⟩ := h x hx
    rw [h1] at heq
    injection heq with heq
    exact heq ▸ h2
  have at' : ∀ evs W, (∀ e ∈ evs, WEv.own e = true) → WSteps fconf (Whole.init mac sconf peer u r key (fwdRun fconf sI before).2) evs W →
      WAt mac peer u r key res pt (ownSteps evs) W := fun evs W ho hr =>
    (whole_inv h0 hn hc hstart hb hr (fair_concat hfair (requests_fair (own_ops ho) _)) (fun ok h => by obtain ⟨m, now, hx⟩ := own_ops ho _ h; cases hx)).1
  induction j with
  | zero =>
    refine ⟨[], _, .refl _, by simp, .refl _, rfl, at' [] _ (by simp) (.refl _), failStop_knock .., ?_, ?_, ?_, ?_⟩ <;>
      simp [Timed.init, cIdx, sIdx]
  | succ j ih =>
    obtain ⟨evs, T, hr, ho, hw, hcount, hat, hfs, h1, h2, h3, h4⟩ := ih (by omega)
    obtain ⟨e, W', he, hs⟩ := wAt_progress (fconf := fconf) mac peer u r key res pt hat (by omega) ⟨goodSalt, by decide⟩ ⟨goodNonce, by decide⟩
    have ht : t0 + (j + 1) * d = T.last + d := by rw [h2, Nat.succ_mul]; omega
    have hle : T.now ≤ t0 + (j + 1) * d := by rw [ht, h1, h2]; omega
    have grow : ∀ e, WEv.own e = true → ∀ x ∈ evs ++ [(t0 + (j + 1) * d, TEv.step e)], ∃ e, x.2 = .step e ∧ WEv.own e = true := by
      intro e he x hx
      rcases List.mem_append.1 hx with hx | hx
      · exact ho x hx
      · rw [List.mem_singleton.1 hx]; exact ⟨e, rfl, he⟩
    have count : ∀ e, WEv.own e = true → ownSteps (untimed (evs ++ [(t0 + (j + 1) * d, TEv.step e)])) = j + 1 := by
      intro e he
      rw [untimed_append, ownSteps_append, hcount, if_pos he]
    have nextAt : ∀ e W', WEv.own e = true → WStep fconf T.W e W' → WSteps fconf (Whole.init mac sconf peer u r key (fwdRun fconf sI before).2)
        (untimed (evs ++ [(t0 + (j + 1) * d, TEv.step e)])) W' ∧ WAt mac peer u r key res pt (j + 1) W' := by
      intro e W' he hs
      have hw' : WSteps fconf (Whole.init mac sconf peer u r key (fwdRun fconf sI before).2) (untimed (evs ++ [(t0 + (j + 1) * d, TEv.step e)])) W' := by
        rw [untimed_append]; exact .step hw hs
      refine ⟨hw', ?_⟩
      have := at' _ _ (own _ (grow e he)) hw'
      rwa [count e he] at this
    have prompt : Timed.canGo fconf T → t0 + (j + 1) * d ≤ T.last + d := fun _ => Nat.le_of_eq ht
    cases e with
    | other op => cases he
    | exchange =>
      obtain ⟨hw', hat'⟩ := nextAt _ _ he hs
      rcases exchange_one hs with hsv | hcl
      · obtain ⟨m1, m2⟩ := client_moved hat hat' hsv (exchange_not13 hat hs)
        exact ⟨_, _, .step hr (.client hle hs hsv) prompt, grow _ he, hw', count _ he, hat', failStop_step hfs hs, rfl, rfl, by rw [m1], by rw [m2]; exact h4⟩
      · obtain ⟨m1, m2⟩ := session_moved hat hat' hcl (exchange_not13 hat hs)
        exact ⟨_, _, .step hr (.session hle hs hcl) prompt, grow _ he, hw', count _ he, hat', failStop_step hfs hs, rfl, rfl, by rw [m2]; exact h3, by rw [m1]⟩
    | serve m now =>
      obtain ⟨W'', hs'⟩ : ∃ W'', WStep fconf T.W (.serve m (t0 + (j + 1) * d)) W'' := by
        obtain ⟨W, a, b, c, e⟩ := T
        cases hs
        exact ⟨_, .serve _⟩
      obtain ⟨hw', hat'⟩ := nextAt _ _ rfl hs'
      have h13 := (wAt_serve mac peer u r key res pt hat hs').1
      subst h13
      exact ⟨_, _, .step hr (.serve hle hs') prompt, grow _ rfl, hw', count _ rfl, hat', failStop_step hfs hs', rfl, rfl, h3, h4⟩

/-- **C132** (the bounds are exact). If the client's control timeout isn't longer than eight times `d`, then there is a run in which everybody is prompt and the client nevertheless gives up, after the session has
succeeded and letmeinfwd has acknowledged; if the server's isn't longer than four times `d`, there is one in which the session gives up. -/
theorem C132_bounds_exact (mac : MacFn) (sconf fconf : Config) (peer : IpAddr) (u : UserId) (r : ResourceId) (key : Key) (res : Resource)
    (hk : sconf.key u = some key) (hg : Granted sconf u r res) (hp : res.tcp = true ∨ res.udp = true)
    (n : NftNames) (hn : ChainOf fconf n) (hc : CanOpen fconf n peer res.port)
    (k0 : Kernel) (startOk : Bool) (sI : FwdState) (hstart : fwdStart fconf k0 startOk = some sI)
    (before : List FwdOp) (hb : (fwdRun fconf sI before).2.phase ≠ .stopped) (hfair : Fair fconf n sI before) (tc d t0 : Duration) :
    (tc ≤ 8 * d → ∃ evs T, PromptRun fconf tc sconf.controlTimeout d (Timed.init (Whole.init mac sconf peer u r key (fwdRun fconf sI before).2) t0) evs T ∧
      (T.now, .clientTimeout) ∈ evs ∧ T.W.client = .ret .err ∧ T.W.server = .ret (.ok ())) ∧
    (sconf.controlTimeout ≤ 4 * d → ∃ evs T, PromptRun fconf tc sconf.controlTimeout d (Timed.init (Whole.init mac sconf peer u r key (fwdRun fconf sI before).2) t0) evs T ∧
      (T.now, .sessionTimeout) ∈ evs) := by
  obtain ⟨pt, hpt⟩ : ∃ pt, res.portType = .ok pt := by
    unfold Resource.portType
    cases h1 : res.tcp <;> cases h2 : res.udp <;> simp_all
  have hu : res.containsUser u = true := by
    unfold Resource.containsUser
    rcases hg.allowed with h | h <;> simp [h]
  have h0 := server_SP0 mac sconf peer u r key res pt hk hg.configured hu hg.notControl hpt
  constructor
  · intro hle
    obtain ⟨evs, T, hr, _, _, _, hat, hfs, h1, h2, h3, h4⟩ := slowest_run h0 hn hc hstart hb hfair tc sconf.controlTimeout d t0 17 (by decide)
    obtain ⟨⟨k, hck⟩, hsk⟩ := wAt_kinds hat
    have hfail : k .fail = .ret .err := by
      rw [hck] at hfs
      exact hfs.2 k rfl
    have ht : T.last + d = T.cSince + 8 * d := by
      rw [h2, h3, show cIdx 17 = 10 from rfl]
      omega
    refine ⟨_, _, .step hr (.clientTimeout (t := T.last + d) (p := k .fail) ?_ ?_ ?_) (fun _ => Nat.le_refl _), ?_, hfail, hsk⟩
    · rw [h1, h2]; exact Nat.le_add_right _ _
    · rw [ht]; exact Nat.add_le_add_left hle _
    · rw [hck]; rfl
    · simp
  · intro hle
    obtain ⟨evs, T, hr, _, _, _, hat, _, h1, h2, h3, h4⟩ := slowest_run h0 hn hc hstart hb hfair tc sconf.controlTimeout d t0 3 (by decide)
    obtain ⟨_, ⟨k, hsk⟩⟩ := wAt_kinds hat
    have ht : T.last + d = T.sSince + 4 * d := by
      rw [h2, h4, show sIdx 3 = 0 from rfl]
      omega
    refine ⟨_, _, .step hr (.sessionTimeout (t := T.last + d) (p := k .fail) ?_ ?_ ?_) (fun _ => Nat.le_refl _), ?_⟩
    · rw [h1, h2]; exact Nat.le_add_right _ _
    · rw [ht]; exact Nat.add_le_add_left hle _
    · rw [hsk]; rfl
    · simp

/-- With the default time limits of five seconds half a second for each step is enough. -/
example (T : Timed) (evs : List (Nat × TEv))
    (hrun : PromptRun fwConf (5 * second) fwConf.controlTimeout (second / 2) (Timed.init (Whole.init toyMac fwConf examplePeer ⟨0xA423DDA7⟩ ⟨0xBC5D8077⟩ (Arr.replicate 32 7) fwStarted) (1000 * second)) evs T)
    (hfair : Fair fwConf fwNames fwStarted (wholeOps (untimed evs))) (hterm : ∀ ok, FwdOp.terminate ok ∉ wholeOps (untimed evs)) :
    (∀ x ∈ evs, x.2 ≠ .clientTimeout ∧ x.2 ≠ .sessionTimeout) ∧ (Timed.canGo fwConf T ∨ T.W.client = .ret (.ok ())) := by
  have h := C132_prompt_knock_succeeds toyMac fwConf fwConf examplePeer ⟨0xA423DDA7⟩ ⟨0xBC5D8077⟩ (Arr.replicate 32 7) { port := 22, tcp := true, udp := false, users := [] }
    (by decide +kernel) ⟨by decide +kernel, by decide +kernel, by decide +kernel⟩ (.inl rfl) fwNames ⟨by decide, rfl, rfl, by decide, by decide⟩
    ⟨⟨(⟨0xBC5D8077⟩, { port := 22, tcp := true, udp := false, users := [] }), by decide +kernel, rfl⟩, by decide +kernel, by decide +kernel, by decide, by decide, by decide, by decide⟩
    fwKernel true fwStarted fwStarted_ok [] (by decide +kernel) _ _ _ (by decide +kernel) (by decide +kernel) evs T hrun hfair hterm
  exact ⟨h.1, h.2.2.2.imp id fun x => x.2.1⟩

/-- With one second for each step the client may give up. -/
example : ∃ evs T, PromptRun fwConf (5 * second) fwConf.controlTimeout second (Timed.init (Whole.init toyMac fwConf examplePeer ⟨0xA423DDA7⟩ ⟨0xBC5D8077⟩ (Arr.replicate 32 7) fwStarted) 0) evs T ∧
    (T.now, .clientTimeout) ∈ evs ∧ T.W.client = .ret .err ∧ T.W.server = .ret (.ok ()) :=
  (C132_bounds_exact toyMac fwConf fwConf examplePeer ⟨0xA423DDA7⟩ ⟨0xBC5D8077⟩ (Arr.replicate 32 7) { port := 22, tcp := true, udp := false, users := [] }
    (by decide +kernel) ⟨by decide +kernel, by decide +kernel, by decide +kernel⟩ (.inl rfl) fwNames ⟨by decide, rfl, rfl, by decide, by decide⟩
    ⟨⟨(⟨0xBC5D8077⟩, { port := 22, tcp := true, udp := false, users := [] }), by decide +kernel, rfl⟩, by decide +kernel, by decide +kernel, by decide, by decide, by decide, by decide⟩
    fwKernel true fwStarted fwStarted_ok [] (by decide +kernel) trivial (5 * second) second 0).1 (by decide +kernel)

end Letmein.Props
