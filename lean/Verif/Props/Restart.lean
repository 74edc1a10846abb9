import Verif.Spec.Restart

/-!
# Property C107: a changed configuration file and the restart of letmeind
-/

namespace Letmein.Props

open Letmein Prog Spec

/-! ### What of its configuration letmeinfwd uses -/

/-- Configurations that are the same to letmeinfwd. -/
structure FwEq (a b : Config) : Prop where
  port : a.port = b.port
  family : a.nftFamily = b.nftFamily
  table : a.nftTable = b.nftTable
  chain : a.nftChainInput = b.nftChainInput
  timeout : a.nftTimeout = b.nftTimeout
  resources : ∀ p, (∃ e ∈ a.resources, e.2.port = p) ↔ ∃ e ∈ b.resources, e.2.port = p

section
variable {a b : Config} (h : FwEq a b)
include h

theorem fwEq_names : NftNames.get a = NftNames.get b := by
  unfold NftNames.get
  rw [h.family, h.table, h.chain]

theorem fwEq_genAdd : genAddLeaseCmd a = genAddLeaseCmd b := by
  funext addr port
  unfold genAddLeaseCmd
  rw [fwEq_names h]

theorem fwEq_genAdds : genAddLeaseCmds a = genAddLeaseCmds b := by
  funext l
  unfold genAddLeaseCmds
  rw [fwEq_genAdd h]

theorem fwEq_rebuild : fullRebuild a = fullRebuild b := by
  funext fw k ok
  unfold fullRebuild rebuildCmds genCtrlCmds
  rw [fwEq_names h, fwEq_genAdd h, fwEq_genAdds h, h.port]

theorem fwEq_add : addLease a = addLease b := by
  funext l k ok
  unfold addLease
  rw [fwEq_genAdds h]

theorem fwEq_remove : removeLeases a = removeLeases b := by
  funext l k env
  unfold removeLeases
  have : genDeleteLeaseCmds a = genDeleteLeaseCmds b := by
    funext r l
    unfold genDeleteLeaseCmds
    rw [fwEq_names h]
  rw [this]

theorem fwEq_open : NftFirewall.openPort a = NftFirewall.openPort b := by
  funext fw k now addr port ok
  unfold NftFirewall.openPort
  have h1 : Lease.new a = Lease.new b := by
    funext n x p
    unfold Lease.new
    rw [h.port, h.timeout]
  have h2 : ∀ l n, Lease.refreshTimeout l a n = Lease.refreshTimeout l b n := by
    intro l n
    unfold Lease.refreshTimeout
    rw [h.timeout]
  rw [h1, fwEq_add h]
  simp only [h2]

theorem fwEq_byPort (p : UInt16) : (a.resourceIdByPort p none).isNone = (b.resourceIdByPort p none).isNone := by
  have key : ∀ c : Config, (c.resourceIdByPort p none).isSome = true ↔ ∃ e ∈ c.resources, e.2.port = p :=
    fun c => ⟨mem_of_resourceIdByPort, resourceIdByPort_of_mem⟩
  have := (key a).trans ((h.resources p).trans (key b).symm)
  cases ha : a.resourceIdByPort p none <;> cases hb : b.resourceIdByPort p none <;> simp_all

theorem fwEq_decide : fwdDecide a = fwdDecide b := by
  funext rx
  unfold fwdDecide
  simp only [fwEq_byPort h, h.port]

theorem fwEq_step : fwdStep a = fwdStep b := by
  funext s op
  have h1 : handleMessage a = handleMessage b := by
    funext fw k rx now ok
    unfold handleMessage
    rw [fwEq_decide h, fwEq_open h]
  have h2 : NftFirewall.doShutdown a = NftFirewall.doShutdown b := by
    funext fw k ok
    unfold NftFirewall.doShutdown
    rw [fwEq_rebuild h]
  have h3 : NftFirewall.maintain a = NftFirewall.maintain b := by
    funext fw k now env
    unfold NftFirewall.maintain
    rw [fwEq_remove h, fwEq_rebuild h]
  cases op <;> simp only [fwdStep, h1, h2, h3]

theorem fwEq_run : fwdRun a = fwdRun b := by
  funext s ops
  induction ops generalizing s with
  | nil => rfl
  | cons op rest ih => simp only [fwdRun, fwEq_step h, ih]

theorem fwEq_start : fwdStart a = fwdStart b := by
  funext k ok
  unfold fwdStart NftFirewall.new
  rw [fwEq_rebuild h]

end

/-- A setting that two files have in common. -/
theorem given_sameSetting {α : Type} {a b : Doc} (hn : (b.map (·.1)).Nodup) {n o : String} {P : Str → α → Prop} {dflt x y : α}
    (hs : ∀ v, Setting a n.toList o.toList v ↔ Setting b n.toList o.toList v) (hP : ∀ s x y, P s x → P s y → x = y)
    (hx : Given a n o P dflt x) (hy : Given b n o P dflt y) : x = y := by
  refine given_unique hn hP ?_ hy
  unfold Given at hx ⊢
  simpa only [hs] using hx

theorem durationText_unique {f64 : F64Secs} : ∀ s x y, DurationText f64 s x → DurationText f64 s y → x = y := by
  intro s x y hx hy
  exact unique_of_parse parseDuration_iff s x y hx hy

theorem port_of_doc {f64 : F64Secs} {d : Doc} {c : Config} (h : ConfOf f64 d c) (p : UInt16) :
    (∃ e ∈ c.resources, e.2.port = p) ↔ ∃ r res, DocResource d r res ∧ res.port = p := by
  constructor
  · rintro ⟨⟨r, res⟩, he, hp⟩
    exact ⟨r, res, (h.resources.resources _ _).1 ((assocGet_eq_some_iff h.resourcesNodup).2 he), hp⟩
  · rintro ⟨r, res, hd, hp⟩
    exact ⟨(r, res), (assocGet_eq_some_iff h.resourcesNodup).1 ((h.resources.resources _ _).2 hd), hp⟩

theorem fwEq_of_docs {f64 : F64Secs} {a b : Doc} (hna : (a.map (·.1)).Nodup) (hnb : (b.map (·.1)).Nodup) (hs : SameForFirewall a b) {cA cB : Config}
    (hA : ConfOf f64 a cA) (vA : cA.variant = .Server) (hB : ConfOf f64 b cB) (vB : cB.variant = .Server) : FwEq cA cB := by
  have t : ∀ s x y, Trimmed s x → Trimmed s y → x = y := by
    intro s x y hx hy; rw [trimmed_iff] at hx hy; rw [← hx, ← hy]
  have f1 := hA.nftFamily; have f2 := hA.nftTable; have f3 := hA.nftChainInput; have f4 := hA.nftTimeout
  have g1 := hB.nftFamily; have g2 := hB.nftTable; have g3 := hB.nftChainInput; have g4 := hB.nftTimeout
  rw [if_pos vA] at f1 f2 f3 f4
  rw [if_pos vB] at g1 g2 g3 g4
  exact {
    port := given_sameSetting hnb hs.port (unique_of_parse parsePort_iff) hA.port hB.port
    family := given_sameSetting hnb (hs.nftables _) (fun s x y hx hy => t s x y hx.1 hy.1) f1 g1
    table := given_sameSetting hnb (hs.nftables _) t f2 g2
    chain := given_sameSetting hnb (hs.nftables _) t f3 g3
    timeout := given_sameSetting hnb (hs.nftables _) durationText_unique f4 g4
    resources := fun p => (port_of_doc hA p).trans ((hs.resources p).trans (port_of_doc hB p).symm) }

/-! ### A knock that letmeinfwd refuses -/

section
variable (mac : MacFn) (peer : IpAddr) (u : UserId) (r : ResourceId) (key : Key) (res : Resource) (pt : PortType)

/-- Where the parties are after the refusal. -/
def WNo (i : Nat) (W : Whole) : Prop :=
  match i with
  | 14 => CP6 W.client ∧ SP7 u r W.server ∧ W.c2s = [] ∧ W.s2c = [] ∧ W.toFw = [] ∧ W.fromFw = [FwMessage.newNack]
  | 15 => CP6 W.client ∧ NP8 u r W.server ∧ W.c2s = [] ∧ W.s2c = [] ∧ W.toFw = [] ∧ W.fromFw = []
  | 16 => ∃ s, CP6 W.client ∧ NP9 u r s W.server ∧ W.c2s = [] ∧ W.s2c = [] ∧ W.toFw = [] ∧ W.fromFw = []
  | 17 => ∃ s, CP6 W.client ∧ W.server = .ret .err ∧ W.c2s = [] ∧ W.s2c = [Message.new .GoAway u r s] ∧ W.toFw = [] ∧ W.fromFw = []
  | 18 => W.client = .ret .err ∧ W.server = .ret .err ∧ W.c2s = [] ∧ W.s2c = [] ∧ W.toFw = [] ∧ W.fromFw = []
  | _ => False

theorem wNo_exchange {fconf : Config} {i : Nat} {W W' : Whole} (h : WNo u r i W) (hs : WStep fconf W .exchange W') :
    WNo u r (i + 1) W' ∧ W'.fwd = W.fwd := by
  obtain ⟨c, s, a, b, x, y, f⟩ := W
  unfold WNo at h
  split at h
  · obtain ⟨⟨k, hc, hk⟩, ⟨ks, hss, hks⟩, h1, h2, h3, h4⟩ := h
    simp only at hc hss h1 h2 h3 h4
    subst hc hss h1 h2 h3 h4
    cases hs
    exact ⟨⟨⟨_, rfl, hk⟩, (hks _).2 rfl, rfl, rfl, rfl, rfl⟩, rfl⟩
  · obtain ⟨⟨k, hc, hk⟩, ⟨ks, hss, hks⟩, h1, h2, h3, h4⟩ := h
    simp only at hc hss h1 h2 h3 h4
    subst hc hss h1 h2 h3 h4
    cases hs
    exact ⟨⟨_, ⟨_, rfl, hk⟩, hks _ ‹_›, rfl, rfl, rfl, rfl⟩, rfl⟩
  · obtain ⟨s1, ⟨k, hc, hk⟩, ⟨ks, hss, hks⟩, h1, h2, h3, h4⟩ := h
    simp only at hc hss h1 h2 h3 h4
    subst hc hss h1 h2 h3 h4
    cases hs
    exact ⟨⟨s1, ⟨_, rfl, hk⟩, hks, rfl, rfl, rfl, rfl⟩, rfl⟩
  · obtain ⟨s1, ⟨k, hc, hk⟩, hss, h1, h2, h3, h4⟩ := h
    simp only at hc hss h1 h2 h3 h4
    subst hc hss h1 h2 h3 h4
    cases hs
    exact ⟨⟨(hk _).2 rfl, rfl, rfl, rfl, rfl, rfl⟩, rfl⟩
  · obtain ⟨hc, hss, h1, h2, h3, h4⟩ := h
    simp only at hc hss h1 h2 h3 h4
    subst hc hss h1 h2 h3 h4
    cases hs
  · exact h.elim

theorem wNo_serve {fconf : Config} {i : Nat} {W W' : Whole} {m : FwMessage} {now : Nat} (h : WNo u r i W) (hs : WStep fconf W (.serve m now) W') : False := by
  have : W.toFw = [] := by
    unfold WNo at h
    split at h <;> simp_all
  cases hs
  cases this

theorem wNo_le {i : Nat} {W : Whole} (h : WNo u r i W) : i ≤ 18 := by
  unfold WNo at h
  split at h <;> first | omega | exact h.elim

theorem wNo_progress {fconf : Config} {i : Nat} {W : Whole} (h : WNo u r i W) (hi : i < 18)
    (hr8 : ∃ s : Arr 8, secureRandom 8 (some s) = .ok s) : ∃ e W', WEv.own e = true ∧ WStep fconf W e W' := by
  obtain ⟨g8, hg8⟩ := hr8
  obtain ⟨c, s, a, b, x, y, f⟩ := W
  unfold WNo at h
  split at h
  · obtain ⟨_, ⟨ks, hss, hks⟩, h1, h2, h3, h4⟩ := h
    simp only at hss h1 h2 h3 h4
    subst hss h1 h2 h3 h4
    exact ⟨_, _, rfl, .sFwRecv⟩
  · obtain ⟨_, ⟨ks, hss, hks⟩, h1, h2, h3, h4⟩ := h
    simp only at hss h1 h2 h3 h4
    subst hss h1 h2 h3 h4
    exact ⟨_, _, rfl, .sRand8 _ hg8⟩
  · obtain ⟨s1, _, ⟨ks, hss, hks⟩, h1, h2, h3, h4⟩ := h
    simp only at hss h1 h2 h3 h4
    subst hss h1 h2 h3 h4
    exact ⟨_, _, rfl, .sSend⟩
  · obtain ⟨s1, ⟨k, hc, hk⟩, hss, h1, h2, h3, h4⟩ := h
    simp only at hc hss h1 h2 h3 h4
    subst hc hss h1 h2 h3 h4
    exact ⟨_, _, rfl, .cRecv⟩
  · omega
  · exact h.elim

end

theorem othersOps_append (a b : List WEv) : othersOps (a ++ b) = othersOps a ++ othersOps b := by
  simp only [othersOps, List.filterMap_append]

/-- letmeinfwd refuses a port that its configuration doesn't have. -/
theorem refuses {fconf : Config} {n : NftNames} (hn : ChainOf fconf n) {k0 : Kernel} {ok0 : Bool} {s0 : FwdState} (h0 : fwdStart fconf k0 ok0 = some s0)
    {ops : List FwdOp} (hf : Fair fconf n s0 ops) (hr : (fwdRun fconf s0 ops).2.phase = .running ∨ (fwdRun fconf s0 ops).2.phase = .stopping)
    {peer : IpAddr} {pt : PortType} {port : UInt16} (hno : ¬ ((∃ e ∈ fconf.resources, e.2.port = port) ∧ port ≠ fconf.port.port)) (now : Nat) :
    fwdStep fconf (fwdRun fconf s0 ops).2 (.request (.msg (FwMessage.newOpen peer pt port)) now true) =
      (some FwMessage.newNack, (fwdRun fconf s0 ops).2) := by
  obtain ⟨h1, h2⟩ := C17_others_refused fconf (fwdRun fconf s0 ops).2 (.msg (FwMessage.newOpen peer pt port)) now true (by
    rintro ⟨m, addr, t, p, hm, _, _, hp, _, _, _, _, h7, h8⟩
    injection hm with hm
    subst hm
    have : (FwMessage.newOpen peer pt port).getPort = some (pt, port) := rfl
    rw [this] at hp
    cases hp
    exact hno ⟨h7, h8⟩)
  obtain ⟨rep, h3, _⟩ := C17_open_answered fconf k0 ok0 s0 h0 ops ⟨n, hf, hn⟩ hr (FwMessage.newOpen peer pt port) rfl now true
  refine Prod.ext ?_ h1
  rcases h2 with h2 | h2
  · rw [h2] at h3; cases h3
  · exact h2

/-- The invariant of a run that ends in a refusal. -/
theorem refused_inv {mac : MacFn} {sconf fconf : Config} {peer : IpAddr} {u : UserId} {r : ResourceId} {key : Key} {res : Resource} {pt : PortType}
    (h0 : SP0 mac peer u r key res pt (session mac sconf peer)) {n : NftNames} (hn : ChainOf fconf n)
    (hno : ¬ ((∃ e ∈ fconf.resources, e.2.port = res.port) ∧ res.port ≠ fconf.port.port)) {k0 : Kernel} {startOk : Bool} {sI : FwdState}
    (hstart : fwdStart fconf k0 startOk = some sI)
    {before : List FwdOp} (hb : (fwdRun fconf sI before).2.phase ≠ .stopped) {evs : List WEv} {W : Whole}
    (hrun : WSteps fconf (Whole.init mac sconf peer u r key (fwdRun fconf sI before).2) evs W)
    (hfair : Fair fconf n sI (before ++ wholeOps evs)) (hterm : ∀ ok, FwdOp.terminate ok ∉ wholeOps evs) :
    ((ownSteps evs ≤ 13 ∧ WAt mac peer u r key res pt (ownSteps evs) W) ∨ WNo u r (ownSteps evs) W) ∧
      W.fwd = (fwdRun fconf (fwdRun fconf sI before).2 (othersOps evs)).2 := by
  obtain ⟨hp0, n', hn', hinv0⟩ := fwdStart_inv hstart
  have := chainOf_unique hn hn'
  subst this
  generalize hi : Whole.init mac sconf peer u r key (fwdRun fconf sI before).2 = W0 at hrun
  induction hrun with
  | refl =>
    subst hi
    refine ⟨.inl ⟨by simp [ownSteps], ?_⟩, rfl⟩
    show WAt mac peer u r key res pt 0 _
    unfold WAt
    simp only [Nat.zero_le, if_true]
    exact ⟨⟨client_CP0 .., h0, rfl, rfl, rfl⟩, rfl, rfl⟩
  | @step W1 W2 evs e hrun hs ih =>
    rw [wholeOps_append] at hfair hterm
    rw [← List.append_assoc] at hfair
    obtain ⟨hfair1, _⟩ := fair_append hfair
    obtain ⟨hat, heq⟩ := ih hfair1 (fun ok h => hterm ok (by simp [h]))
    have hfwd := whole_fwd hrun
    rw [← hi] at hfwd
    simp only [Whole.init] at hfwd
    rw [ownSteps_append, othersOps_append, fwdRun_append]
    cases e with
    | other op =>
      simp only [WEv.own, Bool.false_eq_true, if_false, Nat.add_zero]
      cases hs
      exact ⟨hat, by rw [← heq]; rfl⟩
    | exchange =>
      simp only [WEv.own, if_true]
      rcases hat with ⟨hle, hat⟩ | hat
      · obtain ⟨q1, q2⟩ := wAt_exchange mac peer u r key res pt hat hs
        have hne : ownSteps evs ≠ 13 := by
          intro h13
          rw [h13] at hat
          unfold WAt at hat
          simp only [Nat.reduceLeDiff, if_false, if_true] at hat
          obtain ⟨hp, t1, t2⟩ := hat
          obtain ⟨q1, q2, q3, q4⟩ := phase13 mac peer u r key res pt hp
          rcases whole_plain hs [] with ⟨_, _, _, _, hx⟩ | ⟨m, k, hk, _⟩ | ⟨m, e1, _⟩
          · exact hx q1 q2 q4
          · obtain ⟨k', q2⟩ := q2
            simp only [Whole.joint] at q2
            rw [hk] at q2
            cases q2
          · rw [t2] at e1; cases e1
        exact ⟨.inl ⟨by omega, q1⟩, by rw [q2, heq]; rfl⟩
      · obtain ⟨q1, q2⟩ := wNo_exchange u r hat hs
        exact ⟨.inr q1, by rw [q2, heq]; rfl⟩
    | serve m now =>
      simp only [WEv.own, if_true]
      rcases hat with ⟨hle, hat⟩ | hat
      · obtain ⟨h13, rfl, h2, -⟩ := wAt_serve mac peer u r key res pt hat hs
        have hnot : W1.fwd.phase ≠ .stopped := by
          rw [hfwd]
          exact not_stopped_run hb (fun ok h => hterm ok (by simp [h]))
        have hW1 : W1.fwd = (fwdRun fconf sI (before ++ wholeOps evs)).2 := by rw [hfwd, fwdRun_append]
        have hinv := fwdRun_inv hn hinv0 _ hfair1
        have hph : W1.fwd.phase = .running ∨ W1.fwd.phase = .stopping := by
          rw [← hW1] at hinv
          cases hx : W1.fwd.phase with
          | running => exact .inl rfl
          | stopping => exact .inr rfl
          | stopped => exact absurd hx hnot
          | crashed => unfold FwdInv at hinv; rw [hx] at hinv; exact hinv.elim
        have hnack := refuses hn hstart hfair1 (by rw [← hW1]; exact hph) (peer := peer) (pt := pt) hno now
        rw [← hW1] at hnack
        refine ⟨.inr ?_, by rw [h2, hnack, heq]; rfl⟩
        rw [h13] at hat ⊢
        unfold WAt at hat
        simp only [Nat.reduceLeDiff, if_false, if_true] at hat
        obtain ⟨⟨c1, c2, c3, c4, _⟩, t1, t2⟩ := hat
        cases hs
        simp only at t1 t2
        simp only [Whole.joint] at c1 c2 c3 c4
        injection t1 with _ t1
        subst t1 t2
        exact ⟨c1, c2, c3, c4, rfl, by rw [hnack]; rfl⟩
      · exact (wNo_serve u r hat hs).elim

/-- A knock for a port that letmeinfwd's configuration doesn't have. -/
theorem refused_run {mac : MacFn} {sconf fconf : Config} {peer : IpAddr} {u : UserId} {r : ResourceId} {key : Key} {res : Resource}
    (hk : sconf.key u = some key) (hg : Granted sconf u r res) (hp : res.tcp = true ∨ res.udp = true) {n : NftNames} (hn : ChainOf fconf n)
    (hno : ¬ ((∃ e ∈ fconf.resources, e.2.port = res.port) ∧ res.port ≠ fconf.port.port)) {k0 : Kernel} {startOk : Bool} {sI : FwdState}
    (hstart : fwdStart fconf k0 startOk = some sI)
    {before : List FwdOp} (hb : (fwdRun fconf sI before).2.phase ≠ .stopped) {evs : List WEv} {W : Whole}
    (hrun : WSteps fconf (Whole.init mac sconf peer u r key (fwdRun fconf sI before).2) evs W)
    (hfair : Fair fconf n sI (before ++ wholeOps evs)) (hterm : ∀ ok, FwdOp.terminate ok ∉ wholeOps evs) :
    ownSteps evs ≤ 18 ∧ W.fwd = (fwdRun fconf (fwdRun fconf sI before).2 (othersOps evs)).2 ∧
      ((∃ e W', WEv.own e = true ∧ WStep fconf W e W') ∨ (ownSteps evs = 18 ∧ W.client = .ret .err ∧ W.server = .ret .err)) := by
  obtain ⟨pt, hpt⟩ : ∃ pt, res.portType = .ok pt := by
    unfold Resource.portType
    cases h1 : res.tcp <;> cases h2 : res.udp <;> simp_all
  have hu : res.containsUser u = true := by
    unfold Resource.containsUser
    rcases hg.allowed with h | h <;> simp [h]
  have h0 := server_SP0 mac sconf peer u r key res pt hk hg.configured hu hg.notControl hpt
  obtain ⟨hat, hfwd⟩ := refused_inv h0 hn hno hstart hb hrun hfair hterm
  rcases hat with ⟨hle, hat⟩ | hat
  · exact ⟨by omega, hfwd, .inl (wAt_progress mac peer u r key res pt hat (by omega) ⟨goodSalt, by decide⟩ ⟨goodNonce, by decide⟩)⟩
  · have hle := wNo_le u r hat
    refine ⟨hle, hfwd, ?_⟩
    by_cases h18 : ownSteps evs = 18
    · rw [h18] at hat
      exact .inr ⟨h18, hat.1, hat.2.1⟩
    · exact .inl (wNo_progress u r hat (by omega) ⟨goodSalt, by decide⟩)

/-- The resources of a file have a protocol. -/
theorem docResource_proto {d : Doc} {r : ResourceId} {res : Resource} (h : DocResource d r res) : res.tcp = true ∨ res.udp = true := by
  obtain ⟨_, v, _, _, items, _, _, _, _, t1, t2⟩ := h
  by_cases hx : HasWord items "udp"
  · exact .inr (t2.2 hx)
  · exact .inl (t1.2 (.inr hx))

theorem knockable_iff {f64 : F64Secs} {d : Doc} (hd : (d.map (·.1)).Nodup) {c : Config} (h : ConfOf f64 d c) (p : UInt16) :
    ((∃ e ∈ c.resources, e.2.port = p) ∧ p ≠ c.port.port) ↔ Knockable d p := by
  unfold Knockable
  rw [port_of_doc h]
  refine and_congr_right fun _ => ⟨fun hp cp hcp => ?_, fun hp => hp _ h.port⟩
  rw [given_unique hd (unique_of_parse parsePort_iff) hcp h.port]
  exact hp

/-! ### The property -/

/-- **C107** (exact). letmeinfwd was started from one file; letmeind from another one, e.g. after the file was edited and only letmeind was restarted. The new file has the
key of the user and grants the resource to them. The exchange of the three programs runs to its end without interference, while letmeinfwd
also serves others. Then the client succeeds if and only if *letmeinfwd's* file has a resource with this port (whatever else it says about it) other than its
control port. If not, client and session end with an error and the knock has had no effect on letmeinfwd and on the firewall. -/
theorem C107_knock_iff {mac : MacFn} {oF : FwdOpts} {wF : FwdWorld} (hoF : IsOrder wF.order) {kF : Kernel} {fwd : FwdProc}
    (hF : fwdMain oF wF = (kF, .ok fwd)) {dF : Doc} (hdF : FileDoc wF.file dF) {oL : LmOpts} {wL : LmWorld} (hoL : IsOrder wL.order) {lm : LmProc}
    (hL : lmMain oL wL = .ok lm) {dL : Doc} (hdL : FileDoc wL.file dL) {u : UserId} {key : Key} (hk : DocKey dL u key) {r : ResourceId} {res : Resource}
    (hg : DocGrants dL u r res) {n : NftNames} (hn : DocChain dF n) {peer : IpAddr} (hfam : matchable n.family peer = true) (hpeer : OrdinaryAddr peer)
    {before : List FwdOp} (hb : (fwdRun fwd.setup.conf fwd.life.core before).2.phase ≠ .stopped) {evs : List WEv} {W : Whole}
    (hrun : WSteps fwd.setup.conf (Whole.init mac lm.conf peer u r key (fwdRun fwd.setup.conf fwd.life.core before).2) evs W)
    (hfair : Fair fwd.setup.conf n fwd.life.core (before ++ wholeOps evs)) (hterm : ∀ ok, FwdOp.terminate ok ∉ wholeOps evs)
    (hend : ¬ ∃ e W', WEv.own e = true ∧ WStep fwd.setup.conf W e W') :
    (W.client = .ret (.ok ()) ↔ Knockable dF res.port) ∧
      (¬ Knockable dF res.port → W.client = .ret .err ∧ W.server = .ret .err ∧
        W.fwd = (fwdRun fwd.setup.conf (fwdRun fwd.setup.conf fwd.life.core before).2 (othersOps evs)).2) := by
  obtain ⟨cF, vF⟩ := fwdMain_conf hoF hF hdF
  obtain ⟨cL, vL, _⟩ := lmMain_conf hoL hL hdL
  have hgL := (docGrants_iff (fileDoc_nodup hdL) cL).2 hg
  have hkL := (cL.keys.keys _ _).2 hk
  have hpr := docResource_proto hg.resource
  have hc := chainOf_doc (fileDoc_nodup hdF) cF vF hn
  obtain ⟨_, _, _, _, _, _, _, hstart, _⟩ := lifeStart_ok (fwdMain_lifeStart hF)
  obtain ⟨p1, p2, p3, p4⟩ := hpeer
  have hkn := knockable_iff (fileDoc_nodup hdF) cF res.port
  have hno : ¬ Knockable dF res.port → W.client = .ret .err ∧ W.server = .ret .err ∧
      W.fwd = (fwdRun fwd.setup.conf (fwdRun fwd.setup.conf fwd.life.core before).2 (othersOps evs)).2 := by
    intro h
    obtain ⟨_, hfwd, hx | ⟨_, h1, h2⟩⟩ := refused_run hkL hgL hpr hc (fun hx => h (hkn.1 hx)) hstart hb hrun hfair hterm
    · exact absurd hx hend
    · exact ⟨h1, h2, hfwd⟩
  refine ⟨⟨fun hok => Classical.byContradiction fun h => ?_, fun h => ?_⟩, hno⟩
  · rw [(hno h).1] at hok
    cases hok
  · obtain ⟨e1, e2⟩ := hkn.2 h
    obtain ⟨_, hx | ⟨_, hcl, _⟩⟩ := C79_honest_knock_opens mac lm.conf fwd.setup.conf peer u r key res hkL hgL hpr n hc ⟨e1, e2, hfam, p1, p2, p3, p4⟩ _ _ _
      hstart before hb evs W hrun hfair hterm
    · exact absurd hx hend
    · exact hcl

/-- **C107** (what needs no restart of letmeinfwd). Two files with the same section `NFTABLES`, the same control port and the same resource ports (they may differ in keys, users, resource numbers,
protocols, the error policy, the control timeout and everything else): letmeinfwd started from the one sets up the firewall as if started from the other, and
answers and behaves the same in every history. -/
theorem C107_same_firewall {oA : FwdOpts} {wA : FwdWorld} (hoA : IsOrder wA.order) {kA : Kernel} {pA : FwdProc} (hA : fwdMain oA wA = (kA, .ok pA))
    {a : Doc} (ha : FileDoc wA.file a) {oB : FwdOpts} {wB : FwdWorld} (hoB : IsOrder wB.order) {kB : Kernel} {pB : FwdProc}
    (hB : fwdMain oB wB = (kB, .ok pB)) {b : Doc} (hb : FileDoc wB.file b) (hf : wA.f64 = wB.f64) (hs : SameForFirewall a b) :
    (∀ k ok, fwdStart pA.setup.conf k ok = fwdStart pB.setup.conf k ok) ∧
      ∀ s ops, fwdRun pA.setup.conf s ops = fwdRun pB.setup.conf s ops := by
  obtain ⟨cA, vA⟩ := fwdMain_conf hoA hA ha
  obtain ⟨cB, vB⟩ := fwdMain_conf hoB hB hb
  rw [hf] at cA
  have h := fwEq_of_docs (fileDoc_nodup ha) (fileDoc_nodup hb) hs cA vA cB vB
  exact ⟨fun k ok => congrFun (congrFun (fwEq_start h) k) ok, fun s ops => congrFun (congrFun (fwEq_run h) s) ops⟩

theorem knockable_same {a b : Doc} (hs : SameForFirewall a b) {u : UserId} {r : ResourceId} {res : Resource} (hg : DocGrants b u r res) :
    Knockable a res.port := by
  refine ⟨(hs.resources _).2 ⟨r, res, hg.resource, rfl⟩, fun cp hcp => hg.notControl cp ?_⟩
  unfold DocControlPort Given at hcp ⊢
  simpa only [hs.port] using hcp

/-- **C107**, restricted to edits that do not concern the firewall. *Missing:* edits of the resources' ports (see `C107_negation`), of the control port and of the section `NFTABLES`; these need
a restart of letmeinfwd. After the edit letmeind was restarted and letmeinfwd was not. Then everyone whom the new file
grants a resource, and whose key it has, succeeds in knocking. -/
theorem C107_restart_partial {mac : MacFn} {oF : FwdOpts} {wF : FwdWorld} (hoF : IsOrder wF.order) {kF : Kernel} {fwd : FwdProc}
    (hF : fwdMain oF wF = (kF, .ok fwd)) {old : Doc} (hdF : FileDoc wF.file old) {oL : LmOpts} {wL : LmWorld} (hoL : IsOrder wL.order) {lm : LmProc}
    (hL : lmMain oL wL = .ok lm) {new : Doc} (hdL : FileDoc wL.file new) (hs : SameForFirewall old new)
    {u : UserId} {key : Key} (hk : DocKey new u key) {r : ResourceId} {res : Resource}
    (hg : DocGrants new u r res) {n : NftNames} (hn : DocChain old n) {peer : IpAddr} (hfam : matchable n.family peer = true) (hpeer : OrdinaryAddr peer)
    {before : List FwdOp} (hb : (fwdRun fwd.setup.conf fwd.life.core before).2.phase ≠ .stopped) {evs : List WEv} {W : Whole}
    (hrun : WSteps fwd.setup.conf (Whole.init mac lm.conf peer u r key (fwdRun fwd.setup.conf fwd.life.core before).2) evs W)
    (hfair : Fair fwd.setup.conf n fwd.life.core (before ++ wholeOps evs)) (hterm : ∀ ok, FwdOp.terminate ok ∉ wholeOps evs)
    (hend : ¬ ∃ e W', WEv.own e = true ∧ WStep fwd.setup.conf W e W') : W.client = .ret (.ok ()) :=
  (C107_knock_iff hoF hF hdF hoL hL hdL hk hg hn hfam hpeer hb hrun hfair hterm hend).1.2 (knockable_same hs hg)

/-! ### Adding a resource -/

/-- The file before the resource `BC5D8077` was added. -/
def restartOldText : Str :=
  ("[GENERAL]\nport = 5800 / tcp\n[NFTABLES]\nfamily = inet\ntable = filter\nchain-input = LETMEIN-INPUT\n[KEYS]\n" ++
  "A423DDA7 = 0707070707070707070707070707070707070707070707070707070707070707\n[RESOURCES]\n00000001 = port: 443 / users: 00000005\n").toList

/-- The start of letmeinfwd from it. -/
def restartOldWorld : FwdWorld := { e2eFwdWorld with file := .text restartOldText }

theorem restart_old : ∃ k p, fwdMain e2eFwdOpts restartOldWorld = (k, .ok p) ∧ p.setup.conf.resources.all (fun e => e.2.port ≠ 22) = true ∧
    NftNames.get p.setup.conf = .ok fwNames ∧ p.life.core.phase = .running := by
  have h : (match fwdMain e2eFwdOpts restartOldWorld with
      | (_, .ok p) => p.setup.conf.resources.all (fun e => e.2.port ≠ 22) && decide (NftNames.get p.setup.conf = .ok fwNames) &&
          decide (p.life.core.phase = .running)
      | _ => false) = true := by decide +kernel
  split at h
  · rename_i k p hp
    simp only [Bool.and_eq_true, decide_eq_true_eq] at h
    exact ⟨k, p, hp, h.1.1, h.1.2, h.2⟩
  · cases h

/-- Runs of a refused knock to its end exist. -/
theorem refused_complete (mac : MacFn) {sconf fconf : Config} {peer : IpAddr} {u : UserId} {r : ResourceId} {key : Key} {res : Resource}
    (hk : sconf.key u = some key) (hg : Granted sconf u r res) (hp : res.tcp = true ∨ res.udp = true) {n : NftNames} (hn : ChainOf fconf n)
    (hno : ¬ ((∃ e ∈ fconf.resources, e.2.port = res.port) ∧ res.port ≠ fconf.port.port)) {k0 : Kernel} {startOk : Bool} {sI : FwdState}
    (hstart : fwdStart fconf k0 startOk = some sI) (hb : sI.phase ≠ .stopped) :
    ∃ evs W, WSteps fconf (Whole.init mac sconf peer u r key sI) evs W ∧ (∀ e ∈ evs, WEv.own e = true) ∧
      ¬ ∃ e W', WEv.own e = true ∧ WStep fconf W e W' := by
  have main : ∀ evs W, (∀ e ∈ evs, WEv.own e = true) → WSteps fconf (Whole.init mac sconf peer u r key sI) evs W → ownSteps evs ≤ 18 := by
    intro evs W ho hrun
    exact (refused_run hk hg hp hn hno hstart (before := []) hb hrun (requests_fair (own_ops ho) _)
      (fun ok h => by obtain ⟨m, now, hx⟩ := own_ops ho _ h; cases hx)).1
  have len : ∀ evs : List WEv, (∀ e ∈ evs, WEv.own e = true) → ownSteps evs = evs.length := by
    intro evs ho
    rw [ownSteps, List.filter_eq_self.2 ho]
  have go : ∀ j evs W, evs.length + j = 19 → (∀ e ∈ evs, WEv.own e = true) → WSteps fconf (Whole.init mac sconf peer u r key sI) evs W →
      ∃ evs W, WSteps fconf (Whole.init mac sconf peer u r key sI) evs W ∧ (∀ e ∈ evs, WEv.own e = true) ∧
        ¬ ∃ e W', WEv.own e = true ∧ WStep fconf W e W' := by
    intro j
    induction j with
    | zero =>
      intro evs W hl ho hrun
      have := main evs W ho hrun
      rw [len evs ho] at this
      omega
    | succ j ih =>
      intro evs W hl ho hrun
      by_cases hx : ∃ e W', WEv.own e = true ∧ WStep fconf W e W'
      · obtain ⟨e, W', he, hs⟩ := hx
        refine ih (evs ++ [e]) W' (by simp; omega) ?_ (.step hrun hs)
        intro x hx
        rcases List.mem_append.1 hx with hx | hx
        · exact ho x hx
        · rw [List.mem_singleton.1 hx]; exact he
      · exact ⟨evs, W, hrun, ho, hx⟩
  exact go 19 [] _ rfl (by simp) (.refl _)

/-- **C107** fails in general. The resource with port 22 is added to the file, and letmeind is restarted, as described in README.md. letmeinfwd still runs with the old
file. A user knocks whose key the new file has and whom it grants the resource; nobody interferes. The knock ends in an error,
for every run of it to its end. Had letmeinfwd been restarted as well, it would have succeeded (C80). -/
theorem C107_negation : ∃ kF fwd lm old new u key r res, fwdMain e2eFwdOpts restartOldWorld = (kF, .ok fwd) ∧ FileDoc restartOldWorld.file old ∧
    lmMain e2eLmOpts e2eLmWorld = .ok lm ∧ FileDoc e2eLmWorld.file new ∧ DocKey new u key ∧ DocGrants new u r res ∧ DocChain old fwNames ∧
    matchable fwNames.family examplePeer = true ∧ OrdinaryAddr examplePeer ∧ fwd.life.core.phase = .running ∧
    (∃ evs W, WSteps fwd.setup.conf (Whole.init toyMac lm.conf examplePeer u r key fwd.life.core) evs W ∧ (∀ e ∈ evs, WEv.own e = true) ∧
      ¬ ∃ e W', WEv.own e = true ∧ WStep fwd.setup.conf W e W') ∧
    ∀ evs W, WSteps fwd.setup.conf (Whole.init toyMac lm.conf examplePeer u r key fwd.life.core) evs W → (∀ e ∈ evs, WEv.own e = true) →
      (¬ ∃ e W', WEv.own e = true ∧ WStep fwd.setup.conf W e W') → W.client = .ret .err ∧ W.server = .ret .err ∧ W.fwd = fwd.life.core := by
  obtain ⟨k, p, hp, hres22, hnames, hphase⟩ := restart_old
  obtain ⟨q, hq, _, hkey, hres, hport⟩ := e2e_lm
  obtain ⟨ids, _, conf, fw, r, _, _, _, hload, hnew, _, _, hpe⟩ := fwdMain_ok hp
  obtain ⟨old, hold⟩ := C54_server_needs_document rfl hload
  obtain ⟨k', p', hp', _⟩ := e2e_fwd
  obtain ⟨_, _, conf', _, _, _, _, _, hload', _⟩ := fwdMain_ok hp'
  obtain ⟨new, hd'⟩ := C54_server_needs_document rfl hload'
  have hnewd : FileDoc e2eLmWorld.file new := hd'
  obtain ⟨cF, vF⟩ := fwdMain_conf reverse_order hp hold
  obtain ⟨cL, vL, _⟩ := lmMain_conf id_order hq hnewd
  have hg : Granted q.conf ⟨0xA423DDA7⟩ ⟨0xBC5D8077⟩ { port := 22, tcp := true, udp := false, users := [] } :=
    ⟨hres, .inl rfl, by rw [hport]; decide⟩
  have hchain : ChainOf p.setup.conf fwNames := names_get_iff.1 hnames
  obtain ⟨_, _, _, _, _, _, _, hstart, _⟩ := lifeStart_ok (fwdMain_lifeStart hp)
  have hno : ¬ ((∃ e ∈ p.setup.conf.resources, e.2.port = 22) ∧ (22 : UInt16) ≠ p.setup.conf.port.port) := by
    rintro ⟨⟨e, he, h22⟩, _⟩
    have := List.all_eq_true.1 hres22 e he
    simp [h22] at this
  have hns : p.life.core.phase ≠ .stopped := by rw [hphase]; simp
  have hdg := (docGrants_iff (fileDoc_nodup hnewd) cL).1 hg
  have hdk := (cL.keys.keys _ _).1 hkey
  have hdc := docChain_of cF vF hchain
  have hoa : OrdinaryAddr examplePeer := ⟨by decide, by decide, by decide, by decide⟩
  refine ⟨k, p, q, old, new, _, _, _, _, hp, hold, hq, hnewd, hdk, hdg, hdc, by decide, hoa,
    hphase, refused_complete toyMac hkey hg (.inl rfl) hchain hno hstart hns, ?_⟩
  intro evs W hrun ho hend
  have h := (C107_knock_iff reverse_order hp hold id_order hq hnewd hdk hdg hdc (peer := examplePeer) (by decide) hoa (before := []) hns hrun
    (requests_fair (own_ops ho) _) (fun ok h => by obtain ⟨m, now, hx⟩ := own_ops ho _ h; cases hx) hend).2
    (fun hk => hno ((knockable_iff (fileDoc_nodup hold) cF _).2 hk))
  refine ⟨h.1, h.2.1, ?_⟩
  have : othersOps evs = [] := by
    unfold othersOps
    rw [List.filterMap_eq_nil_iff]
    intro e he
    have := ho e he
    cases e <;> simp_all [WEv.own]
  rw [this] at h
  exact h.2.2

/-- A section with one assignment in it. -/
theorem lastValue_one {o v o' v' : Str} : LastValue [(o, v)] o' v' ↔ o' = o ∧ v' = v := by
  constructor
  · rintro ⟨a, b, h, _⟩
    cases a with
    | nil => simp at h; exact ⟨h.1.1.symm, h.1.2.symm⟩
    | cons x a => simp at h
  · rintro ⟨rfl, rfl⟩
    exact ⟨[], [], rfl, by simp⟩

/-- The hypothesis about the files of `C107_restart_partial` and `C107_same_firewall` is met by different files: a key is added and a resource gets another
number and is restricted to this user. -/
example : ∃ a b : Doc, a ≠ b ∧ SameForFirewall a b ∧ (∃ r res, DocResource a r res ∧ res.port = 22 ∧ res.users = []) ∧
    ∃ r res, DocResource b r res ∧ res.port = 22 ∧ res.users = [⟨5⟩] := by
  have r1 : DocResource [("RESOURCES".toList, [("00000001".toList, "port: 22".toList)])] ⟨1⟩ { port := 22, tcp := true, udp := false, users := [] } :=
    ⟨_, _, ⟨_, List.mem_singleton.2 rfl, lastValue_one.2 ⟨rfl, rfl⟩⟩, parseId_iff.1 (by decide +kernel), parseResource_iff.1 (by decide +kernel)⟩
  have r2 : DocResource [("KEYS".toList, [("00000005".toList, List.replicate 64 '7')]), ("RESOURCES".toList, [("00000002".toList, "port: 22 / users: 5".toList)])]
      ⟨2⟩ { port := 22, tcp := true, udp := false, users := [⟨5⟩] } :=
    ⟨_, _, ⟨_, List.mem_cons_of_mem _ (List.mem_singleton.2 rfl), lastValue_one.2 ⟨rfl, rfl⟩⟩, parseId_iff.1 (by decide +kernel),
      parseResource_iff.1 (by decide +kernel)⟩
  refine ⟨_, _, by decide, ⟨?_, ?_, fun p => ⟨?_, ?_⟩⟩, ⟨_, _, r1, rfl, rfl⟩, ⟨_, _, r2, rfl, rfl⟩⟩
  · intro o v
    constructor <;> rintro ⟨as, h, _⟩ <;> simp at h
  · intro v
    constructor <;> rintro ⟨as, h, _⟩ <;> simp at h
  · rintro ⟨r, res, ⟨n, v, ⟨as, h, hl⟩, _, ht⟩, hp⟩
    simp at h
    subst h
    obtain ⟨rfl, rfl⟩ := lastValue_one.1 hl
    have := resourceText_unique ht (parseResource_iff.1 (show parseResource "port: 22".toList = .ok { port := 22, tcp := true, udp := false, users := [] } by decide +kernel))
    subst this
    exact ⟨_, _, r2, hp⟩
  · rintro ⟨r, res, ⟨n, v, ⟨as, h, hl⟩, _, ht⟩, hp⟩
    simp at h
    subst h
    obtain ⟨rfl, rfl⟩ := lastValue_one.1 hl
    have := resourceText_unique ht (parseResource_iff.1 (show parseResource "port: 22 / users: 5".toList =
      .ok { port := 22, tcp := true, udp := false, users := [⟨5⟩] } by decide +kernel))
    subst this
    exact ⟨_, _, r1, hp⟩

end Letmein.Props
