import Verif.Lemmas.Whole
import Verif.Props.Joint

/-!
# Property C79: an honest knock opens the port
-/

namespace Letmein.Props

open Letmein Prog Spec

/-- letmeinfwd's configuration has a resource with the port, other than the control port, and the address is an ordinary one of a family that the
chain can match. -/
structure CanOpen (fconf : Config) (n : NftNames) (addr : IpAddr) (port : UInt16) : Prop where
  resource : ∃ e ∈ fconf.resources, e.2.port = port
  notControl : port ≠ fconf.port.port
  family : matchable n.family addr = true
  notUnspecified4 : addr ≠ .v4 (Arr.replicate 4 0)
  notBroadcast4 : addr ≠ .v4 (Arr.replicate 4 0xFF)
  notUnspecified6 : addr ≠ .v6 (Arr.replicate 16 0)
  notOnes6 : addr ≠ .v6 (Arr.replicate 16 0xFF)

/-- Number of steps that belong to the knock. -/
def ownSteps (evs : List WEv) : Nat := (evs.filter WEv.own).length

theorem ownSteps_append (evs : List WEv) (e : WEv) : ownSteps (evs ++ [e]) = ownSteps evs + (if e.own then 1 else 0) := by
  simp only [ownSteps, List.filter_append, List.length_append]
  cases h : e.own <;> simp [h]

/-- The invariant of a run. -/
theorem whole_inv {mac : MacFn} {sconf fconf : Config} {peer : IpAddr} {u : UserId} {r : ResourceId} {key : Key} {res : Resource} {pt : PortType}
    (h0 : SP0 mac peer u r key res pt (session mac sconf peer)) {n : NftNames} (hn : ChainOf fconf n)
    (hc : CanOpen fconf n peer res.port) {k0 : Kernel} {startOk : Bool} {sI : FwdState} (hstart : fwdStart fconf k0 startOk = some sI)
    {before : List FwdOp} (hb : (fwdRun fconf sI before).2.phase ≠ .stopped) {evs : List WEv} {W : Whole}
    (hrun : WSteps fconf (Whole.init mac sconf peer u r key (fwdRun fconf sI before).2) evs W)
    (hfair : Fair fconf n sI (before ++ wholeOps evs)) (hterm : ∀ ok, FwdOp.terminate ok ∉ wholeOps evs) :
    WAt mac peer u r key res pt (ownSteps evs) W ∧ (13 < ownSteps evs → ∃ a b now,
      wholeOps evs = a ++ .request (.msg (FwMessage.newOpen peer pt res.port)) now true :: b ∧
      (fwdStep fconf (fwdRun fconf (fwdRun fconf sI before).2 a).2
        (.request (.msg (FwMessage.newOpen peer pt res.port)) now true)).1 = some FwMessage.newAck) := by
  obtain ⟨hp0, n', hn', hinv0⟩ := fwdStart_inv hstart
  have := chainOf_unique hn hn'
  subst this
  generalize hi : Whole.init mac sconf peer u r key (fwdRun fconf sI before).2 = W0 at hrun
  induction hrun with
  | refl =>
    subst hi
    refine ⟨?_, fun h => absurd h (by simp [ownSteps])⟩
    show WAt mac peer u r key res pt 0 _
    unfold WAt
    simp only [Nat.zero_le, if_true]
    exact ⟨⟨client_CP0 .., h0, rfl, rfl, rfl⟩, rfl, rfl⟩
  | @step W1 W2 evs e hrun hs ih =>
    rw [wholeOps_append] at hfair hterm
    rw [← List.append_assoc] at hfair
    obtain ⟨hfair1, _⟩ := fair_append hfair
    obtain ⟨hat, hreq⟩ := ih hfair1 (fun ok h => hterm ok (by simp [h]))
    have hfwd := whole_fwd hrun
    rw [← hi] at hfwd
    simp only [Whole.init] at hfwd
    rw [ownSteps_append, wholeOps_append]
    have grow : ∀ (l : List FwdOp), (13 < ownSteps evs → ∃ a b now,
        wholeOps evs ++ l = a ++ .request (.msg (FwMessage.newOpen peer pt res.port)) now true :: b ∧
        (fwdStep fconf (fwdRun fconf (fwdRun fconf sI before).2 a).2
          (.request (.msg (FwMessage.newOpen peer pt res.port)) now true)).1 = some FwMessage.newAck) := by
      intro l h
      obtain ⟨a, b, now, e1, e2⟩ := hreq h
      exact ⟨a, b ++ l, now, by rw [e1]; simp, e2⟩
    cases e with
    | other op =>
      refine ⟨?_, fun h => grow _ (by simpa [WEv.own] using h)⟩
      simp only [WEv.own, Bool.false_eq_true, if_false, Nat.add_zero]
      cases hs
      exact hat
    | exchange =>
      simp only [WEv.own, if_true]
      obtain ⟨h1, h2⟩ := wAt_exchange mac peer u r key res pt hat hs
      refine ⟨h1, fun h => ?_⟩
      by_cases h13 : 13 < ownSteps evs
      · exact grow _ h13
      · -- the step from 13 to 14 is letmeinfwd's
        exfalso
        have h13 : ownSteps evs = 13 := by omega
        rw [h13] at hat
        unfold WAt at hat
        simp only [Nat.reduceLeDiff, if_false, if_true] at hat
        obtain ⟨hp, t1, t2⟩ := hat
        obtain ⟨q1, q2, q3, q4⟩ := phase13 mac peer u r key res pt hp
        rcases whole_plain hs [] with ⟨_, _, _, _, hx⟩ | ⟨m, k, hk, _⟩ | ⟨m, e1, _⟩
        · exact hx q1 q2 q4
        · obtain ⟨k', q2⟩ := q2
          simp only [Whole.joint] at q2
          rw [hk] at q2
          cases q2
        · rw [t2] at e1; cases e1
    | serve m now =>
      simp only [WEv.own, if_true]
      obtain ⟨h13, rfl, h2, h3⟩ := wAt_serve mac peer u r key res pt hat hs
      have hnot : W1.fwd.phase ≠ .stopped := by
        rw [hfwd]
        exact not_stopped_run hb (fun ok h => hterm ok (by simp [h]))
      have hW1 : W1.fwd = (fwdRun fconf sI (before ++ wholeOps evs)).2 := by rw [hfwd, fwdRun_append]
      have hinv := fwdRun_inv hn hinv0 _ hfair1
      have hph : W1.fwd.phase = .running ∨ W1.fwd.phase = .stopping := by
        rw [← hW1] at hinv
        cases hx : W1.fwd.phase with
        | running => exact .inl rfl
        | stopping => exact .inr rfl
        | stopped => exact absurd hx hnot
        | crashed => unfold FwdInv at hinv; rw [hx] at hinv; exact hinv.elim
      have hack := C17_valid_requests_acked fconf n hn k0 startOk sI hstart _ hfair1 (by rw [← hW1]; exact hph) peer pt res.port hc.family
        hc.notUnspecified4 hc.notBroadcast4 hc.notUnspecified6 hc.notOnes6 hc.resource hc.notControl now
      rw [← hW1] at hack
      refine ⟨h3 hack, fun _ => ⟨wholeOps evs, [], now, by simp [wholeOps, WEv.fwdOp], ?_⟩⟩
      rw [← hfwd]
      exact hack

/-- **C79**. The user's key is the same on both sides, the resource is granted to the user by letmeind's configuration, and letmeinfwd's
configuration and the client's address allow the opening: then whatever the scheduling and the random values, and whatever letmeinfwd served before
and serves meanwhile (short of its termination; `nft` may fail for others), the knock takes at most 18 steps; until it is complete a step of
it is possible (nobody waits for ever); and when it is complete, client and session have succeeded and the chain lets the client's address
in at the resource's port for all its protocols (if the knock took less than the lease time). -/
theorem C79_honest_knock_opens (mac : MacFn) (sconf fconf : Config) (peer : IpAddr) (u : UserId) (r : ResourceId) (key : Key) (res : Resource)
    (hk : sconf.key u = some key) (hg : Granted sconf u r res) (hp : res.tcp = true ∨ res.udp = true)
    (n : NftNames) (hn : ChainOf fconf n) (hc : CanOpen fconf n peer res.port)
    (k0 : Kernel) (startOk : Bool) (sI : FwdState) (hstart : fwdStart fconf k0 startOk = some sI)
    (before : List FwdOp) (hb : (fwdRun fconf sI before).2.phase ≠ .stopped) (evs : List WEv) (W : Whole)
    (hrun : WSteps fconf (Whole.init mac sconf peer u r key (fwdRun fconf sI before).2) evs W)
    (hfair : Fair fconf n sI (before ++ wholeOps evs)) (hterm : ∀ ok, FwdOp.terminate ok ∉ wholeOps evs) :
    ownSteps evs ≤ 18 ∧ ((∃ e W', WEv.own e = true ∧ WStep fconf W e W') ∨
      (ownSteps evs = 18 ∧ W.client = .ret (.ok ()) ∧ W.server = .ret (.ok ()) ∧
        (Within fconf.nftTimeout (wholeOps evs) → OpenFor n W.fwd.kernel peer res))) := by
  obtain ⟨pt, hpt⟩ : ∃ pt, res.portType = .ok pt := by
    unfold Resource.portType
    cases h1 : res.tcp <;> cases h2 : res.udp <;> simp_all
  have hu : res.containsUser u = true := by
    unfold Resource.containsUser
    rcases hg.allowed with h | h <;> simp [h]
  have h0 := server_SP0 mac sconf peer u r key res pt hk hg.configured hu hg.notControl hpt
  obtain ⟨hat, hreq⟩ := whole_inv h0 hn hc hstart hb hrun hfair hterm
  have hle : ownSteps evs ≤ 18 := by
    by_cases h14 : ownSteps evs ≤ 14
    · omega
    · unfold WAt at hat
      simp only [if_neg (show ¬ ownSteps evs ≤ 12 by omega), if_neg (show ¬ ownSteps evs = 13 by omega),
        if_neg (show ¬ ownSteps evs = 14 by omega)] at hat
      have := phase_le mac peer u r key res pt hat.1
      omega
  refine ⟨hle, ?_⟩
  by_cases h18 : ownSteps evs = 18
  · right
    obtain ⟨a, b, now, hops, hans⟩ := hreq (by omega)
    rw [h18] at hat
    unfold WAt at hat
    simp only [Nat.reduceLeDiff, Nat.reduceEqDiff, if_false, Nat.reduceSub] at hat
    obtain ⟨⟨q1, q2, _⟩, _⟩ := hat
    refine ⟨h18, q1, q2, fun hw => ?_⟩
    obtain ⟨p1, p2⟩ := portType_spec hpt
    have hfwd := whole_fwd hrun
    simp only [Whole.init] at hfwd
    rw [hfwd]
    exact open_after_ack hn hstart p1 p2 hops hans rfl hfair hw (not_stopped_run hb hterm)
  · exact .inl (wAt_progress mac peer u r key res pt hat (by omega) ⟨goodSalt, by decide⟩ ⟨goodNonce, by decide⟩)

theorem own_ops {evs : List WEv} (h : ∀ e ∈ evs, WEv.own e = true) : ∀ op ∈ wholeOps evs, ∃ m now, op = .request (.msg m) now true := by
  intro op ho
  obtain ⟨e, he, heq⟩ := List.mem_filterMap.1 ho
  cases e with
  | exchange => cases heq
  | serve m now => injection heq with heq; exact ⟨m, now, heq.symm⟩
  | other => exact absurd (h _ he) (by simp [WEv.own])

theorem requests_fair {conf : Config} {n : NftNames} {ops : List FwdOp} (h : ∀ op ∈ ops, ∃ m now, op = .request (.msg m) now true) (s : FwdState) :
    Fair conf n s ops := by
  induction ops generalizing s with
  | nil => trivial
  | cons op rest ih =>
    refine ⟨?_, ih (fun o ho => h o (by simp [ho])) _⟩
    obtain ⟨m, now, rfl⟩ := h op (by simp)
    trivial

theorem fair_concat {conf : Config} {n : NftNames} {s : FwdState} {a b : List FwdOp} (h1 : Fair conf n s a)
    (h2 : Fair conf n (fwdRun conf s a).2 b) : Fair conf n s (a ++ b) := by
  induction a generalizing s with
  | nil => exact h2
  | cons op a ih => exact ⟨h1.1, ih h1.2 h2⟩

/-- **C79** (there is such a run). Under the same conditions a complete run exists, with a successful client. -/
theorem C79_complete_run (mac : MacFn) (sconf fconf : Config) (peer : IpAddr) (u : UserId) (r : ResourceId) (key : Key) (res : Resource)
    (hk : sconf.key u = some key) (hg : Granted sconf u r res) (hp : res.tcp = true ∨ res.udp = true)
    (n : NftNames) (hn : ChainOf fconf n) (hc : CanOpen fconf n peer res.port)
    (k0 : Kernel) (startOk : Bool) (sI : FwdState) (hstart : fwdStart fconf k0 startOk = some sI)
    (before : List FwdOp) (hb : (fwdRun fconf sI before).2.phase ≠ .stopped) (hfair : Fair fconf n sI before) :
    ∃ evs W, WSteps fconf (Whole.init mac sconf peer u r key (fwdRun fconf sI before).2) evs W ∧ ownSteps evs = 18 ∧
      evs.length = 18 ∧ W.client = .ret (.ok ()) := by
  have main : ∀ evs W, (∀ e ∈ evs, WEv.own e = true) →
      WSteps fconf (Whole.init mac sconf peer u r key (fwdRun fconf sI before).2) evs W →
      ownSteps evs ≤ 18 ∧ ((∃ e W', WEv.own e = true ∧ WStep fconf W e W') ∨ (ownSteps evs = 18 ∧ W.client = .ret (.ok ()))) := by
    intro evs W ho hrun
    have := C79_honest_knock_opens mac sconf fconf peer u r key res hk hg hp n hn hc k0 startOk sI hstart before hb evs W hrun
      (fair_concat hfair (requests_fair (own_ops ho) _)) (fun ok h => by obtain ⟨m, now, hx⟩ := own_ops ho _ h; cases hx)
    exact ⟨this.1, this.2.imp id (fun h => ⟨h.1, h.2.1⟩)⟩
  have len : ∀ evs : List WEv, (∀ e ∈ evs, WEv.own e = true) → ownSteps evs = evs.length := by
    intro evs ho
    rw [ownSteps, List.filter_eq_self.2 ho]
  have step : ∀ j, j ≤ 18 → ∃ evs W, (∀ e ∈ evs, WEv.own e = true) ∧ evs.length = j ∧
      WSteps fconf (Whole.init mac sconf peer u r key (fwdRun fconf sI before).2) evs W := by
    intro j
    induction j with
    | zero => exact fun _ => ⟨[], _, by simp, rfl, .refl _⟩
    | succ j ih =>
      intro hj
      obtain ⟨evs, W, ho, hl, hrun⟩ := ih (by omega)
      rcases (main evs W ho hrun).2 with ⟨e, W', he, hs⟩ | ⟨h18, _⟩
      · refine ⟨evs ++ [e], W', ?_, by simp [hl], .step hrun hs⟩
        intro x hx
        rcases List.mem_append.1 hx with hx | hx
        · exact ho x hx
        · rw [List.mem_singleton.1 hx]; exact he
      · rw [len evs ho] at h18; omega
  obtain ⟨evs, W, ho, hl, hrun⟩ := step 18 (Nat.le_refl _)
  refine ⟨evs, W, hrun, by rw [len evs ho, hl], hl, ?_⟩
  rcases (main evs W ho hrun).2 with ⟨e, W', he, hs⟩ | ⟨_, h⟩
  · have ho' : ∀ x ∈ evs ++ [e], WEv.own x = true := by
      intro x hx
      rcases List.mem_append.1 hx with hx | hx
      · exact ho x hx
      · rw [List.mem_singleton.1 hx]; exact he
    have := (main _ _ ho' (.step hrun hs)).1
    rw [len _ ho'] at this
    simp [hl] at this
  · exact h

/-- The hypotheses about configurations and letmeinfwd are met, also when letmeinfwd has served others before, whose leases have expired, and
its `nft` has failed. -/
example : ∃ res, fwConf.key ⟨0xA423DDA7⟩ = some (Arr.replicate 32 7) ∧ Granted fwConf ⟨0xA423DDA7⟩ ⟨0xBC5D8077⟩ res ∧
    (res.tcp = true ∨ res.udp = true) ∧ ChainOf fwConf fwNames ∧ CanOpen fwConf fwNames examplePeer res.port ∧
    fwdStart fwConf fwKernel true = some fwStarted ∧
    (fwdRun fwConf fwStarted [.request (.msg (FwMessage.newOpen (.v4 ⟨[192, 0, 2, 8], rfl⟩) .Tcp 22)) second true,
      .request (.msg (FwMessage.newOpen examplePeer .TcpUdp 443)) second false,
      .maintain (700 * second) calmEnv]).2.phase ≠ .stopped :=
  ⟨{ port := 22, tcp := true, udp := false, users := [] }, by decide +kernel, ⟨by decide +kernel, by decide +kernel, by decide +kernel⟩,
    .inl rfl, ⟨by decide, rfl, rfl, by decide, by decide⟩,
    ⟨⟨(⟨0xBC5D8077⟩, { port := 22, tcp := true, udp := false, users := [] }), by decide +kernel, rfl⟩, by decide +kernel, by decide +kernel,
      by decide, by decide, by decide, by decide⟩, fwStarted_ok, by decide +kernel⟩

end Letmein.Props
