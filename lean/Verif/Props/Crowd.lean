import Verif.Model.Crowd
import Verif.Props.Whole

/-!
# Property C131: honest knocks at the same time
-/

namespace Letmein.Spec

/-- The client has letmeind's key for the user, and the resource it asks for is granted to the user. -/
structure Entitled (sconf : Config) (k : Knocker) (res : Resource) : Prop where
  key : sconf.key k.user = some k.key
  granted : Granted sconf k.user k.resource res
  proto : res.tcp = true ∨ res.udp = true

/-- What happens to letmeinfwd in a run. -/
def crowdOps (evs : List CEv) : List FwdOp := evs.filterMap CEv.fwdOp

/-- Is it a step of a knock? -/
def CEv.isKnock : CEv → Bool
  | .knock _ _ => true
  | .other _ => false

/-- The number of steps of the knocks. -/
def knockSteps (evs : List CEv) : Nat := (evs.filter CEv.isKnock).length

/-- The number of steps of one knock. -/
def stepsOf (i : Nat) (evs : List CEv) : Nat := (evs.filter fun ev => match ev with | .knock j _ => decide (j = i) | .other _ => false).length

end Letmein.Spec

namespace Letmein.Props

open Letmein Prog Spec

/-- A step as the knock `i` sees it. -/
def seenBy (i : Nat) : CEv → Option WEv
  | .knock j e => if j = i then some e else e.fwdOp.map .other
  | .other op => some (.other op)

/-- A run as the knock `i` sees it. -/
def viewOf (i : Nat) (evs : List CEv) : List WEv := evs.filterMap (seenBy i)

theorem wstep_fwd {fconf : Config} {W W' : Whole} {e : WEv} (h : WStep fconf W e W') :
    W'.fwd = (match e.fwdOp with | some op => (fwdStep fconf W.fwd op).2 | none => W.fwd) := by
  cases h <;> rfl

theorem crowd_view {fconf : Config} {n : Nat} {C C' : Crowd} {evs : List CEv} (h : CSteps fconf n C evs C') (i : Nat) :
    WSteps fconf (C.whole i) (viewOf i evs) (C'.whole i) := by
  induction h with
  | refl => exact .refl _
  | @step C1 C2 evs e _ hs ih =>
    rw [viewOf, List.filterMap_append]
    cases hs with
    | other op =>
      exact .step ih (by exact WStep.other op)
    | @knock j e W hj ho hw =>
      by_cases hji : j = i
      · subst hji
        simp only [List.filterMap_cons, List.filterMap_nil, seenBy, if_true]
        refine .step ih ?_
        simp only [Crowd.whole, if_true]
        exact hw
      · have hf := wstep_fwd hw
        simp only [List.filterMap_cons, List.filterMap_nil, seenBy, if_neg hji]
        cases ho : e.fwdOp with
        | none =>
          rw [ho] at hf
          simp only [Option.map_none, List.append_nil]
          simp only [Crowd.whole, if_neg (Ne.symm hji)] at hf ⊢
          rw [hf]
          exact ih
        | some op =>
          rw [ho] at hf
          simp only [Option.map_some]
          refine .step ih ?_
          simp only [Crowd.whole, if_neg (Ne.symm hji)] at hf ⊢
          rw [hf]
          exact WStep.other op

theorem view_ops (i : Nat) (evs : List CEv) : wholeOps (viewOf i evs) = crowdOps evs := by
  unfold wholeOps viewOf crowdOps
  rw [List.filterMap_filterMap]
  congr 1
  funext e
  cases e with
  | other op => rfl
  | knock j e =>
    simp only [seenBy, CEv.fwdOp]
    split
    · rfl
    · cases e <;> rfl

theorem sum_indicator (n j : Nat) : ((List.range n).map fun i => if j = i then 1 else 0).sum = if j < n then 1 else 0 := by
  induction n with
  | zero => simp
  | succ n ih =>
    rw [List.range_succ, List.map_append, List.sum_append, ih]
    simp only [List.map_cons, List.map_nil, List.sum_cons, List.sum_nil]
    split <;> split <;> split <;> omega

theorem sum_zero (n : Nat) : ((List.range n).map fun _ => 0).sum = 0 := by
  induction n with
  | zero => rfl
  | succ n ih => rw [List.range_succ, List.map_append, List.sum_append, ih]; rfl

theorem sum_map_add (l : List Nat) (f g : Nat → Nat) : (l.map fun i => f i + g i).sum = (l.map f).sum + (l.map g).sum := by
  induction l with
  | nil => rfl
  | cons x xs ih => simp only [List.map_cons, List.sum_cons, ih]; omega

theorem knockSteps_sum {fconf : Config} {n : Nat} {C C' : Crowd} {evs : List CEv} (h : CSteps fconf n C evs C') :
    knockSteps evs = ((List.range n).map fun i => ownSteps (viewOf i evs)).sum := by
  induction h with
  | refl =>
    simp only [knockSteps, viewOf, ownSteps, List.filter_nil, List.length_nil, List.filterMap_nil]
    exact (sum_zero n).symm
  | @step C1 C2 evs e _ hs ih =>
    have hone : ∀ i, ownSteps (viewOf i (evs ++ [e])) = ownSteps (viewOf i evs) + (match e with | .knock j _ => if j = i then 1 else 0 | .other _ => 0) := by
      intro i
      rw [viewOf, List.filterMap_append]
      cases hs with
      | other op => exact ownSteps_append _ _
      | @knock j e W hj ho hw =>
        simp only [List.filterMap_cons, List.filterMap_nil, seenBy]
        split
        · rename_i h
          by_cases hji : j = i
          · rw [if_pos hji] at h; cases h
          · rw [if_neg hji]
            simp [viewOf]
        · rename_i e' h
          refine (ownSteps_append _ _).trans ?_
          by_cases hji : j = i
          · rw [if_pos hji] at h
            injection h with h
            subst h
            rw [if_pos ho, if_pos hji]
            rfl
          · rw [if_neg hji] at h ⊢
            cases he : e.fwdOp with
            | none => rw [he] at h; cases h
            | some op =>
              rw [he] at h
              injection h with h
              subst h
              rfl
    simp only [hone, sum_map_add, ← ih]
    cases hs with
    | other op =>
      simp only [knockSteps, List.filter_append, List.length_append, sum_zero]
      simp [CEv.isKnock]
    | @knock j e W hj ho hw =>
      simp only [knockSteps, List.filter_append, List.length_append, sum_indicator, if_pos hj]
      rfl

theorem sum_le (n b : Nat) (f : Nat → Nat) (h : ∀ i < n, f i ≤ b) : ((List.range n).map f).sum ≤ b * n := by
  induction n with
  | zero => simp
  | succ n ih =>
    rw [List.range_succ, List.map_append, List.sum_append, Nat.mul_succ]
    have := ih fun i hi => h i (by omega)
    have := h n (by omega)
    simp only [List.map_cons, List.map_nil, List.sum_cons, List.sum_nil]
    omega

theorem stepsOf_view {fconf : Config} {n : Nat} {C C' : Crowd} {evs : List CEv} (h : CSteps fconf n C evs C') (i : Nat) :
    stepsOf i evs = ownSteps (viewOf i evs) := by
  induction h with
  | refl => rfl
  | @step C1 C2 evs e _ hs ih =>
    rw [viewOf, List.filterMap_append]
    simp only [stepsOf, List.filter_append, List.length_append] at ih ⊢
    rw [ih]
    cases hs with
    | other op => exact (ownSteps_append _ (.other op)).symm
    | @knock j e W hj ho hw =>
      by_cases hji : j = i
      · simp only [List.filterMap_cons, List.filterMap_nil, seenBy, if_pos hji]
        rw [show viewOf i evs = List.filterMap (seenBy i) evs from rfl, ownSteps_append, if_pos ho]
        simp [hji]
      · simp only [List.filterMap_cons, List.filterMap_nil, seenBy, if_neg hji]
        cases he : e.fwdOp with
        | none => simp [hji, viewOf]
        | some op =>
          simp only [Option.map_some]
          rw [show viewOf i evs = List.filterMap (seenBy i) evs from rfl, ownSteps_append]
          simp [hji, WEv.own]

/-- **C131** (among strangers). Any number of programs talk to letmeind, each in a session of its own, and letmeinfwd also does other things. One of them is an honest client that is entitled to what it asks for; the
others may be any programs, their sessions in any state. However all of them are interleaved: the honest one takes at most 18 steps; as long as it has not succeeded it can take a step, whatever the others do or do not do; and
then client and session have ended in success, and the port is open for the client's address, unless it took longer than leases last. -/
theorem C131_among_strangers (mac : MacFn) (sconf fconf : Config) (n : NftNames) (hn : ChainOf fconf n) (k0 : Kernel) (startOk : Bool) (sI : FwdState)
    (hstart : fwdStart fconf k0 startOk = some sI) (before : List FwdOp) (hb : (fwdRun fconf sI before).2.phase ≠ .stopped)
    (num : Nat) (C0 : Crowd) (hf0 : C0.fwd = (fwdRun fconf sI before).2) (i : Nat) (hi : i < num) (k : Knocker) (res : Resource)
    (h0 : C0.whole i = Whole.init mac sconf k.peer k.user k.resource k.key C0.fwd) (hk : Entitled sconf k res) (hc : CanOpen fconf n k.peer res.port)
    (evs : List CEv) (C : Crowd) (hrun : CSteps fconf num C0 evs C)
    (hfair : Fair fconf n sI (before ++ crowdOps evs)) (hterm : ∀ ok, FwdOp.terminate ok ∉ crowdOps evs) :
    stepsOf i evs ≤ 18 ∧
    ((∃ e C', CStep fconf num C (.knock i e) C') ∨
      ((C.knocks i).client = .ret (.ok ()) ∧ (C.knocks i).server = .ret (.ok ()) ∧
        (Within fconf.nftTimeout (crowdOps evs) → OpenFor n C.fwd.kernel k.peer res))) := by
  have hv := crowd_view hrun i
  rw [h0, hf0] at hv
  obtain ⟨h1, h2⟩ := C79_honest_knock_opens mac sconf fconf k.peer k.user k.resource k.key res hk.key hk.granted hk.proto n hn hc k0 startOk sI hstart before hb
    (viewOf i evs) (C.whole i) hv (by rw [view_ops]; exact hfair) (by rw [view_ops]; exact hterm)
  rw [stepsOf_view hrun]
  refine ⟨h1, ?_⟩
  rcases h2 with ⟨e, W', ho, hw⟩ | ⟨_, h1, h2, h3⟩
  · exact .inl ⟨e, _, .knock hi ho hw⟩
  · rw [view_ops] at h3
    exact .inr ⟨h1, h2, h3⟩

/-- **C131**. Any number of entitled clients knock, all through one letmeind and one letmeinfwd, which also does other things. However their steps are interleaved: together they take at most 18 steps each.
As long as one of them has not succeeded, this one can take a step, whatever the others do or do not do. When one is through, its client and its session have ended in success; and its port is
open for its address, unless it took longer than leases last. -/
theorem C131_all_succeed (mac : MacFn) (sconf fconf : Config) (n : NftNames) (hn : ChainOf fconf n) (k0 : Kernel) (startOk : Bool) (sI : FwdState)
    (hstart : fwdStart fconf k0 startOk = some sI) (before : List FwdOp) (hb : (fwdRun fconf sI before).2.phase ≠ .stopped)
    (num : Nat) (who : Nat → Knocker) (res : Nat → Resource) (hwho : ∀ i < num, Entitled sconf (who i) (res i) ∧ CanOpen fconf n (who i).peer (res i).port)
    (evs : List CEv) (C : Crowd) (hrun : CSteps fconf num (Crowd.init mac sconf who (fwdRun fconf sI before).2) evs C)
    (hfair : Fair fconf n sI (before ++ crowdOps evs)) (hterm : ∀ ok, FwdOp.terminate ok ∉ crowdOps evs) :
    knockSteps evs ≤ 18 * num ∧
    ∀ i < num, (∃ e C', CStep fconf num C (.knock i e) C') ∨
      ((C.knocks i).client = .ret (.ok ()) ∧ (C.knocks i).server = .ret (.ok ()) ∧
        (Within fconf.nftTimeout (crowdOps evs) → OpenFor n C.fwd.kernel (who i).peer (res i))) := by
  have key : ∀ i < num, _ := fun i hi => C131_among_strangers mac sconf fconf n hn k0 startOk sI hstart before hb num _ rfl i hi (who i) (res i) rfl (hwho i hi).1 (hwho i hi).2 evs C hrun
    hfair hterm
  refine ⟨?_, fun i hi => (key i hi).2⟩
  rw [knockSteps_sum hrun]
  exact sum_le _ _ _ fun i hi => stepsOf_view hrun i ▸ (key i hi).1

/-- **C131** (each run can be completed). Wherever the knocks are, they can go on until all have succeeded, without anything else happening. -/
theorem C131_completed (mac : MacFn) (sconf fconf : Config) (n : NftNames) (hn : ChainOf fconf n) (k0 : Kernel) (startOk : Bool) (sI : FwdState)
    (hstart : fwdStart fconf k0 startOk = some sI) (before : List FwdOp) (hb : (fwdRun fconf sI before).2.phase ≠ .stopped)
    (num : Nat) (who : Nat → Knocker) (res : Nat → Resource) (hwho : ∀ i < num, Entitled sconf (who i) (res i) ∧ CanOpen fconf n (who i).peer (res i).port)
    (evs : List CEv) (C : Crowd) (hrun : CSteps fconf num (Crowd.init mac sconf who (fwdRun fconf sI before).2) evs C)
    (hfair : Fair fconf n sI (before ++ crowdOps evs)) (hterm : ∀ ok, FwdOp.terminate ok ∉ crowdOps evs) :
    ∃ more C', CSteps fconf num (Crowd.init mac sconf who (fwdRun fconf sI before).2) (evs ++ more) C' ∧ (∀ ev ∈ more, CEv.isKnock ev = true) ∧
      knockSteps (evs ++ more) ≤ 18 * num ∧ ∀ i < num, (C'.knocks i).client = .ret (.ok ()) ∧ (C'.knocks i).server = .ret (.ok ()) := by
  have main : ∀ d evs C, 18 * num - knockSteps evs ≤ d → CSteps fconf num (Crowd.init mac sconf who (fwdRun fconf sI before).2) evs C →
      Fair fconf n sI (before ++ crowdOps evs) → (∀ ok, FwdOp.terminate ok ∉ crowdOps evs) →
      ∃ more C', CSteps fconf num (Crowd.init mac sconf who (fwdRun fconf sI before).2) (evs ++ more) C' ∧ (∀ ev ∈ more, CEv.isKnock ev = true) ∧
        knockSteps (evs ++ more) ≤ 18 * num ∧ ∀ i < num, (C'.knocks i).client = .ret (.ok ()) ∧ (C'.knocks i).server = .ret (.ok ()) := by
    intro d
    induction d with
    | zero | succ d ih =>
      intro evs C hd hrun hfair hterm
      obtain ⟨hle, hall⟩ := C131_all_succeed mac sconf fconf n hn k0 startOk sI hstart before hb num who res hwho evs C hrun hfair hterm
      by_cases hdone : ∀ i < num, (C.knocks i).client = .ret (.ok ()) ∧ (C.knocks i).server = .ret (.ok ())
      · exact ⟨[], C, by rw [List.append_nil]; exact hrun, by simp, by rw [List.append_nil]; exact hle, hdone⟩
      · simp only [Classical.not_forall] at hdone
        obtain ⟨i, hi, hnot⟩ := hdone
        rcases hall i hi with ⟨e, C', hs⟩ | ⟨h1, h2, _⟩
        · have ho : e.own = true := by cases hs; assumption
          have hops : ∀ op ∈ crowdOps [CEv.knock i e], ∃ m now, op = .request (.msg m) now true := by
            intro op hop
            refine own_ops (evs := [e]) (fun x hx => by rw [List.mem_singleton.1 hx]; exact ho) op ?_
            simpa [wholeOps, crowdOps, CEv.fwdOp] using hop
          have hrun' := CSteps.step hrun hs
          have hsp : crowdOps (evs ++ [CEv.knock i e]) = crowdOps evs ++ crowdOps [CEv.knock i e] := by simp only [crowdOps, List.filterMap_append]
          have hfair' : Fair fconf n sI (before ++ crowdOps (evs ++ [CEv.knock i e])) := by
            rw [hsp, ← List.append_assoc]
            exact fair_concat hfair (requests_fair hops _)
          have hterm' : ∀ ok, FwdOp.terminate ok ∉ crowdOps (evs ++ [CEv.knock i e]) := by
            intro ok hm
            rw [hsp] at hm
            rcases List.mem_append.1 hm with hm | hm
            · exact hterm ok hm
            · obtain ⟨_, _, hx⟩ := hops _ hm
              cases hx
          have hcount : knockSteps (evs ++ [CEv.knock i e]) = knockSteps evs + 1 := by
            simp only [knockSteps, List.filter_append, List.length_append]
            rfl
          have hle' := (C131_all_succeed mac sconf fconf n hn k0 startOk sI hstart before hb num who res hwho _ C' hrun' hfair' hterm').1
          first
            | omega
            | obtain ⟨more, C'', g1, g2, g4, g3⟩ := ih _ C' (by omega) hrun' hfair' hterm'
              refine ⟨CEv.knock i e :: more, C'', by simpa using g1, ?_, by simpa using g4, g3⟩
              intro ev hm
              rcases List.mem_cons.1 hm with rfl | hm
              · rfl
              · exact g2 ev hm
        · exact absurd ⟨h1, h2⟩ hnot
  exact main _ evs C (Nat.le_refl _) hrun hfair hterm

/-! ## A concrete case -/

/-- Clients with different addresses that share a user's key. -/
def crowdWho (i : Nat) : Knocker := ⟨.v4 ⟨[10, 0, 0, UInt8.ofNat i], rfl⟩, ⟨0xA423DDA7⟩, ⟨0xBC5D8077⟩, Arr.replicate 32 7⟩

/-- The first byte of an IPv4 address. -/
def firstByte : IpAddr → Option UInt8
  | .v4 a => a.val.head?
  | .v6 _ => none

/-- Two hundred clients knock while letmeinfwd has served somebody else before: they can all succeed. -/
example : ∃ evs C, CSteps fwConf 200 (Crowd.init toyMac fwConf crowdWho (fwdRun fwConf fwStarted [.request (.msg (FwMessage.newOpen examplePeer .TcpUdp 443)) second true]).2) evs C ∧
    knockSteps evs ≤ 3600 ∧ ∀ i < 200, (C.knocks i).client = .ret (.ok ()) := by
  have hne : ∀ i a, firstByte a ≠ some 10 → (crowdWho i).peer ≠ a := fun i a h e => h (by rw [← e]; rfl)
  have hc : ∀ i, CanOpen fwConf fwNames (crowdWho i).peer 22 := fun i =>
    ⟨⟨(⟨0xBC5D8077⟩, { port := 22, tcp := true, udp := false, users := [] }), by decide +kernel, rfl⟩, by decide +kernel, rfl,
      hne i _ (by decide), hne i _ (by decide), hne i _ (by decide), hne i _ (by decide)⟩
  have hwho : ∀ i < 200, Entitled fwConf (crowdWho i) { port := 22, tcp := true, udp := false, users := [] } ∧ CanOpen fwConf fwNames (crowdWho i).peer 22 := fun i _ =>
    ⟨⟨show fwConf.key ⟨0xA423DDA7⟩ = some (Arr.replicate 32 7) by decide +kernel,
      show Granted fwConf ⟨0xA423DDA7⟩ ⟨0xBC5D8077⟩ _ from ⟨by decide +kernel, by decide +kernel, by decide +kernel⟩, .inl rfl⟩, hc i⟩
  have hn : ChainOf fwConf fwNames := ⟨by decide, rfl, rfl, by decide, by decide⟩
  have hb : (fwdRun fwConf fwStarted [.request (.msg (FwMessage.newOpen examplePeer .TcpUdp 443)) second true]).2.phase ≠ .stopped := by decide +kernel
  have hreq : ∀ op ∈ [FwdOp.request (.msg (FwMessage.newOpen examplePeer .TcpUdp 443)) second true], ∃ m now, op = .request (.msg m) now true :=
    fun op h => ⟨_, _, List.mem_singleton.1 h⟩
  obtain ⟨more, C, h1, _, h2, h3⟩ := C131_completed toyMac fwConf fwConf fwNames hn fwKernel true fwStarted fwStarted_ok _ hb 200 crowdWho (fun _ => _) hwho [] _ (.refl _)
    (by simpa [crowdOps] using requests_fair hreq _) (by simp [crowdOps])
  exact ⟨more, C, h1, h2, fun i hi => (h3 i hi).1⟩

/-- A stranger who has sent a hundred messages, and an honest client: whatever the two do, the honest one has succeeded or can go on. -/
example (evs : List CEv) (C : Crowd)
    (hrun : CSteps fwConf 2 ⟨fun i => if i = 0 then Whole.init toyMac fwConf (crowdWho 1).peer ⟨0xA423DDA7⟩ ⟨0xBC5D8077⟩ (Arr.replicate 32 7) fwStarted else
      { Whole.init toyMac fwConf examplePeer ⟨1⟩ ⟨2⟩ (Arr.replicate 32 1) fwStarted with c2s := List.replicate 100 exampleKnock }, fwStarted⟩ evs C)
    (hfair : Fair fwConf fwNames fwStarted (crowdOps evs)) (hterm : ∀ ok, FwdOp.terminate ok ∉ crowdOps evs) :
    stepsOf 0 evs ≤ 18 ∧ ((∃ e C', CStep fwConf 2 C (.knock 0 e) C') ∨ (C.knocks 0).client = .ret (.ok ())) := by
  have hne : ∀ a, firstByte a ≠ some 10 → (crowdWho 1).peer ≠ a := fun a h e => h (by rw [← e]; rfl)
  have h := C131_among_strangers toyMac fwConf fwConf fwNames ⟨by decide, rfl, rfl, by decide, by decide⟩ fwKernel true fwStarted fwStarted_ok [] (by decide +kernel) 2 _ rfl 0 (by decide) (crowdWho 1)
    { port := 22, tcp := true, udp := false, users := [] } rfl
    ⟨show fwConf.key ⟨0xA423DDA7⟩ = some (Arr.replicate 32 7) by decide +kernel,
      show Granted fwConf ⟨0xA423DDA7⟩ ⟨0xBC5D8077⟩ _ from ⟨by decide +kernel, by decide +kernel, by decide +kernel⟩, .inl rfl⟩
    ⟨⟨(⟨0xBC5D8077⟩, { port := 22, tcp := true, udp := false, users := [] }), by decide +kernel, rfl⟩, by decide +kernel, rfl,
      hne _ (by decide), hne _ (by decide), hne _ (by decide), hne _ (by decide)⟩ evs C hrun hfair hterm
  exact ⟨h.1, h.2.imp id fun x => x.1⟩

end Letmein.Props
