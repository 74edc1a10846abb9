import Verif.Props.Reload
import Verif.Props.UdpSessions
import Verif.Props.Exact2

/-!
# Properties: exact versions of properties that are false, continued

C50: who disturbs whose session. C86: when an emptied chain is restored.
-/

namespace Letmein.Spec

/-- In this history the queue of the peer `p` never overflows. Those of others may. -/
def NoOverflowOf (p : SocketAddr) (s : UdpSrv) : List UdpOp → Prop
  | [] => True
  | op :: rest => (∀ b, dgramOf p op = some b → ¬ QueueFull s p) ∧ NoOverflowOf p (udpStep s op).2 rest

/-- What the chain should let through: packets to the control port and those of the grants. -/
def Wanted (conf : Config) (n : NftNames) (g : Grants) (pkt : Packet) : Prop :=
  (familySees n.family pkt.src = true ∧ toControlPort conf pkt) ∨ ∃ a p e, g a p = some e ∧ covers a p pkt

end Letmein.Spec

namespace Letmein.Props

open Letmein Prog Spec

/-! ## C50 -/

/-- The peer has at most one running session, and that has its connection. -/
structure ExclusiveOf (p : SocketAddr) (s : UdpSrv) : Prop where
  unique : ∀ i j, OpenSession s i p → OpenSession s j p → i = j
  connected : ∀ i, OpenSession s i p → flag s.disp p = some true

theorem step_exclusiveOf {max : Nat} {s : UdpSrv} {p : SocketAddr} (hd : DispOk max s.disp) (h : ExclusiveOf p s) {op : UdpOp} (ho : OrderOk s op)
    (hov : ∀ b, dgramOf p op = some b → ¬ QueueFull s p) (halive : (udpStep s op).2.crashed = false) : ExclusiveOf p (udpStep s op).2 := by
  have hstep := udpStep_cases hd op
  generalize (udpStep s op).1 = out at hstep
  generalize (udpStep s op).2 = s' at hstep halive
  have hT : ∀ {d : UdpDisp} (i : SockIn), (sockArr p i = (dgramOf p op).toList) → d.conn = s.disp.conn → DispOk max d →
      flag s.disp p = some true → flag (d.tryRecv i).2 p = some true := by
    intro d i hsock hc hd h
    rcases tryRecv_flag (s := s) hc hd i p with h1 | ⟨_, _, data, h2, h3, h4⟩ | ⟨h1, _⟩
    · rw [h1, flag_congr hc]; exact h
    · exfalso
      rw [h2, sockArr, if_pos ⟨rfl, h3⟩] at hsock
      cases hdg : dgramOf p op with
      | none => rw [hdg] at hsock; cases hsock
      | some b => exact hov b hdg h4
    · rw [flag_congr hc, h] at h1; cases h1
  cases hstep with
  | skip _ _ => exact h
  | @reorder l =>
    refine ⟨h.unique, ?_⟩
    intro i hi
    unfold flag
    simp only
    rw [assocGet_perm hd.nodup ho]
    exact h.connected i hi
  | acceptPanic _ => cases halive
  | @acceptNone w i d' hc =>
    refine ⟨h.unique, ?_⟩
    intro j hj
    rcases accept_flag hc with ⟨q, hr, _⟩ | ⟨_, hoth⟩
    · cases hr
    · show flag d' p = _
      rw [hoth p]
      exact hT i (dgramOf_accept p w i).symm (wakeAccept_same _ _).1 (wakeAccept_ok hd w) (h.connected j hj)
  | @acceptSome w i q d' _ hc =>
    rcases accept_flag hc with ⟨q', hr, hwait, hacc, hoth⟩ | ⟨hr, _⟩
    · cases hr
      have hno : p = q → ∀ j, ¬ OpenSession s j p := by
        rintro rfl j hj
        have := hT i (dgramOf_accept p w i).symm (wakeAccept_same _ _).1 (wakeAccept_ok hd w) (h.connected j hj)
        rw [hwait] at this
        cases this
      refine ⟨?_, ?_⟩
      · intro a b ha hb
        rcases open_append.1 ha with ha1 | ⟨ha1, hap⟩
        · rcases open_append.1 hb with hb1 | ⟨hb1, hbp⟩
          · exact h.unique a b ha1 hb1
          · exact absurd ha1 (hno hbp a)
        · rcases open_append.1 hb with hb1 | ⟨hb1, _⟩
          · exact absurd hb1 (hno hap b)
          · exact ha1.trans hb1.symm
      · intro a ha
        show flag d' p = _
        rcases open_append.1 ha with ha1 | ⟨ha1, rfl⟩
        · have hpq : p ≠ q := fun e => hno e a ha1
          rw [hoth p hpq]
          exact hT i (dgramOf_accept p w i).symm (wakeAccept_same _ _).1 (wakeAccept_ok hd w) (h.connected a ha1)
        · exact hacc
    · exact absurd rfl (hr q)
  | recvPanic _ _ _ => cases halive
  | @recvNone sid w i se d' _ _ hc =>
    refine ⟨h.unique, fun j hj => ?_⟩
    show flag d' p = _
    rw [(recv_flag hc).1]
    exact hT i (dgramOf_recv p sid w i).symm (wakeRecv_same _ _).1 (wakeRecv_ok hd w) (h.connected j hj)
  | @recvErr sid w i se d' _ _ hc =>
    refine ⟨h.unique, fun j hj => ?_⟩
    show flag d' p = _
    rw [(recv_flag hc).1]
    exact hT i (dgramOf_recv p sid w i).symm (wakeRecv_same _ _).1 (wakeRecv_ok hd w) (h.connected j hj)
  | @recvSome sid w i se b d' _ _ _ hc =>
    refine ⟨h.unique, fun j hj => ?_⟩
    show flag d' p = _
    rw [(recv_flag hc).1]
    exact hT i (dgramOf_recv p sid w i).symm (wakeRecv_same _ _).1 (wakeRecv_ok hd w) (h.connected j hj)
  | closePanic _ _ _ => cases halive
  | @closeOk sid se d' hse hopen hc =>
    have hf := disconnect_flag hc
    have hown : OpenSession s sid se.peer := by unfold OpenSession; rw [hse, ← hopen]
    refine ⟨fun a b ha hb => h.unique a b ((open_set hse).1 ha).2 ((open_set hse).1 hb).2, fun j hj => ?_⟩
    have hj := (open_set hse).1 hj
    have hpq : p ≠ se.peer := by
      rintro rfl
      exact hj.1 (h.unique j sid hj.2 hown)
    show flag d' p = _
    rw [hf.2.1 p hpq]
    exact h.connected j hj.2

/-- **C50** (per peer). A peer whose own queue never overflows has at most one running session, and this keeps its connection until it ends itself, whatever other peers send
and however often their queues overflow. So a peer can disturb no sessions but its own. -/
theorem C50_per_peer (max : Nat) (ops : List UdpOp) (p : SocketAddr) (hl : OrderLegal (UdpSrv.new max) ops)
    (hov : NoOverflowOf p (UdpSrv.new max) ops) (halive : (udpRun (UdpSrv.new max) ops).2.crashed = false) :
    let s := (udpRun (UdpSrv.new max) ops).2
    (∀ i j, OpenSession s i p → OpenSession s j p → i = j) ∧ ∀ i, OpenSession s i p → AcceptedConn s p := by
  have key : ∀ (ops : List UdpOp) (s : UdpSrv), DispOk max s.disp → ExclusiveOf p s → OrderLegal s ops → NoOverflowOf p s ops →
      (udpRun s ops).2.crashed = false → ExclusiveOf p (udpRun s ops).2 := by
    intro ops
    induction ops with
    | nil => intro s _ h _ _ _; exact h
    | cons op ops ih =>
      intro s hd h hl hov hal
      exact ih _ (disp_step hd hl.1) (step_exclusiveOf hd h hl.1 hov.1 (run_alive_before (ops := ops) hal)) hl.2 hov.2 hal
  have h := key ops (UdpSrv.new max) (DispOk.new max)
    ⟨by intro i j hi; simp [OpenSession, UdpSrv.new] at hi, by intro i hi; simp [OpenSession, UdpSrv.new] at hi⟩ hl hov halive
  exact ⟨h.unique, fun i hi => flag_accepted.2 (h.connected i hi)⟩

/-- **C50 (exact)**. The end of a session removes the connection of its own peer and no other. -/
theorem C50_close_iff {max : Nat} {s : UdpSrv} (hs : UdpReach max s) {i : Nat} {q : SocketAddr} (ho : OpenSession s i q)
    (hc : s.crashed = false) (halive : (udpStep s (.close i)).2.crashed = false) (p : SocketAddr) (hp : AcceptedConn s p) :
    ¬ AcceptedConn (udpStep s (.close i)).2 p ↔ p = q := by
  have hstep := udpStep_cases hs.ok (.close i)
  generalize (udpStep s (.close i)).1 = out at hstep
  generalize (udpStep s (.close i)).2 = s' at hstep halive
  rw [flag_accepted] at hp ⊢
  cases hstep with
  | skip hx hy =>
    exfalso
    rcases hx with hx | ⟨sid, hx, hy⟩
    · rw [hc] at hx; cases hx
    · rcases hx with ⟨w, j, hx⟩ | hx
      · cases hx
      · injection hx with hx
        subst hx
        unfold OpenSession at ho
        rw [ho] at hy
        rcases hy with hy | ⟨se, hy, hz⟩
        · cases hy
        · injection hy with hy
          rw [← hy] at hz
          cases hz
  | closePanic _ _ _ => cases halive
  | @closeOk sid se d' hse hopen hx =>
    have hf := disconnect_flag hx
    unfold OpenSession at ho
    rw [hse] at ho
    injection ho with ho
    subst ho
    simp only at hf
    constructor
    · intro h
      refine Classical.byContradiction fun hne => h ?_
      rw [hf.2.1 p hne]
      exact hp
    · rintro rfl
      rw [hf.1]
      simp

/-- `NoOverflowOf` as a test, for the example. -/
def noOverflowOfB (p : SocketAddr) (s : UdpSrv) : List UdpOp → Bool
  | [] => true
  | op :: rest => ((dgramOf p op).isNone || (assocGet s.disp.conn p).all (fun c => c.rxQueue.length ≠ 4)) && noOverflowOfB p (udpStep s op).2 rest

theorem noOverflowOf_of {p : SocketAddr} {s : UdpSrv} {ops : List UdpOp} (h : noOverflowOfB p s ops = true) : NoOverflowOf p s ops := by
  induction ops generalizing s with
  | nil => trivial
  | cons op rest ih =>
    simp only [noOverflowOfB, Bool.and_eq_true, Bool.or_eq_true] at h
    refine ⟨fun b hb => ?_, ih h.2⟩
    rcases h.1 with h1 | h1
    · rw [hb] at h1; cases h1
    · rintro ⟨c, hc, hl⟩
      rw [hc] at h1
      simp [hl] at h1

/-- Another host's overflow, twice connected, and the end of its older session: the session of `exPeer2` keeps its connection. -/
example : NoOverflowOf exPeer2 (UdpSrv.new 8) (staleHistory ++ [.close 0]) ∧ (udpRun (UdpSrv.new 8) (staleHistory ++ [.close 0])).2.crashed = false ∧
    OpenSession (udpRun (UdpSrv.new 8) (staleHistory ++ [.close 0])).2 2 exPeer2 := by
  refine ⟨noOverflowOf_of (by decide +kernel), by decide +kernel, ?_⟩
  unfold OpenSession
  decide +kernel

/-! ## C86 -/

/-- **C86 (exact)**. Another program has emptied the chain. A maintenance, with nft working, restores it exactly if a grant has expired, or there is nothing to restore. -/
theorem C86_emptied_iff (conf : Config) (n : NftNames) (hn : ChainOf conf n) (k0 : Kernel) (ok0 : Bool) (s0 : FwdState) (h0 : fwdStart conf k0 ok0 = some s0)
    (ops : List FwdOp) (hf : Loose conf s0 ops) (hr : (fwdRun conf s0 ops).2.phase = .running) (hempty : ownRules n (fwdRun conf s0 ops).2.kernel = [])
    (now : Nat) (env : NftEnv) (hok : env.rebuildOk = true) :
    (∀ pkt, chainAccepts n (fwdRun conf s0 (ops ++ [.maintain now env])).2.kernel pkt = true ↔
        Wanted conf n (Grants.none.after conf.nftTimeout (fwdRun conf s0 (ops ++ [.maintain now env])).1) pkt) ↔
      (∃ a p e, Grants.none.after conf.nftTimeout (fwdRun conf s0 ops).1 a p = some e ∧ e ≤ now) ∨
      ∀ pkt, ¬ Wanted conf n (Grants.none.after conf.nftTimeout (fwdRun conf s0 ops).1) pkt := by
  by_cases hex : ∃ a p e, Grants.none.after conf.nftTimeout (fwdRun conf s0 ops).1 a p = some e ∧ e ≤ now
  · refine ⟨fun _ => .inl hex, fun _ pkt => ?_⟩
    obtain ⟨a, p, e, hg, hle⟩ := hex
    obtain ⟨sp, hsp⟩ : ∃ sp, sp ∈ p.singles := by cases p <;> exact ⟨_, .head _⟩
    have hr2 : (fwdRun conf s0 (ops ++ [.maintain now env])).2.phase = .running := by
      obtain ⟨hp0, n', hn', hi⟩ := fwdStart_inv h0
      obtain rfl := chainOf_unique hn hn'
      have ht := tabInv_run hn (TabInv.of_inv hi) ops hf
      rw [(exact_snoc ..).1]
      generalize fwdRun conf s0 ops = q at *
      obtain ⟨hist, ⟨phase, fw, k⟩⟩ := q
      obtain ⟨h1, h2, h4⟩ := tabInv_running ht hr
      simp only at hr h1 h2 h4 hempty hg
      subst hr
      obtain ⟨r, k', he, hnp, _, hres⟩ := maintain_loose hn k h1 h2 now env
      obtain ⟨l, hm, hlt⟩ := (h4 a p e).1 hg
      have hkey := h1.keys _ hm
      simp only [Prod.mk.injEq] at hkey
      obtain ⟨rfl, hc⟩ := hres ⟨_, hm, by simp only [hlt]; exact hle, sp, by simp only [← hkey.2]; exact hsp, by rw [hempty]; simp⟩ hok
      simp only [fwdStep, he]
    exact C86_restored_partial conf n hn k0 ok0 s0 h0 ops hf hr now env hok a p e hg hle sp hsp (by rw [hempty]; simp) [] trivial hr2 pkt
  · have hidle : Idle conf n (Grants.none.after conf.nftTimeout (fwdRun conf s0 ops).1) (fwdRun conf s0 ops).2 [.maintain now env] := by
      refine ⟨fun a p e hg => ?_, trivial⟩
      exact Nat.lt_of_not_le fun hle => hex ⟨a, p, e, hg, hle⟩
    obtain ⟨-, h2⟩ := C86_not_restored conf n hn k0 ok0 s0 h0 ops hf hr [.maintain now env] hidle
    have hno : ∀ pkt, chainAccepts n (fwdRun conf s0 (ops ++ [.maintain now env])).2.kernel pkt = false := fun pkt => by
      simp [chainAccepts, h2, hempty]
    have hsame : Grants.none.after conf.nftTimeout (fwdRun conf s0 (ops ++ [.maintain now env])).1 =
        Grants.none.after conf.nftTimeout (fwdRun conf s0 ops).1 := by
      rw [(exact_snoc ..).2, exact_after]
      funext a p
      simp only [Grants.step, granted]
      cases hg : Grants.none.after conf.nftTimeout (fwdRun conf s0 ops).1 a p with
      | none => rfl
      | some e =>
        have : now < e := Nat.lt_of_not_le fun hle => hex ⟨a, p, e, hg, hle⟩
        simp [this]
    rw [hsame]
    constructor
    · intro h
      refine .inr fun pkt hw => ?_
      have := (h pkt).2 hw
      rw [hno] at this
      cases this
    · rintro (h | h) pkt
      · exact absurd h hex
      · refine ⟨fun hx => ?_, fun hx => absurd hx (h pkt)⟩
        rw [hno] at hx
        cases hx

/-- The chain has been emptied. While the grant runs, maintenance restores nothing; when it has expired, maintenance restores the control port. -/
example : ¬ (∀ pkt, chainAccepts fwNames (fwdRun fwConf fwStarted ([.request openSsh 5 true, .foreign reloadedKernel] ++ [.maintain (10 * second) calmEnv])).2.kernel pkt =
        true ↔ Wanted fwConf fwNames (Grants.none.after fwConf.nftTimeout
          (fwdRun fwConf fwStarted ([.request openSsh 5 true, .foreign reloadedKernel] ++ [.maintain (10 * second) calmEnv])).1) pkt) ∧
    ∀ pkt, chainAccepts fwNames (fwdRun fwConf fwStarted ([.request openSsh 5 true, .foreign reloadedKernel] ++ [.maintain (5000 * second) calmEnv])).2.kernel pkt =
        true ↔ Wanted fwConf fwNames (Grants.none.after fwConf.nftTimeout
          (fwdRun fwConf fwStarted ([.request openSsh 5 true, .foreign reloadedKernel] ++ [.maintain (5000 * second) calmEnv])).1) pkt := by
  have hn : ChainOf fwConf fwNames := ⟨by decide, rfl, rfl, by decide, by decide⟩
  have hl : Loose fwConf fwStarted [.request openSsh 5 true, .foreign reloadedKernel] := ⟨(by intro l h; cases h), ⟨(by intro l h; cases h), trivial⟩⟩
  have hr : (fwdRun fwConf fwStarted [.request openSsh 5 true, .foreign reloadedKernel]).2.phase = .running := by decide +kernel
  have he : ownRules fwNames (fwdRun fwConf fwStarted [.request openSsh 5 true, .foreign reloadedKernel]).2.kernel = [] := by decide +kernel
  have hg : (fwdRun fwConf fwStarted [.request openSsh 5 true, .foreign reloadedKernel]).1 =
      [(.request openSsh 5 true, some FwMessage.newAck), (.foreign reloadedKernel, none)] := by
    have : (fwdRun fwConf fwStarted [.request openSsh 5 true, .foreign reloadedKernel]).1.map (·.2) = [some FwMessage.newAck, none] := by decide +kernel
    simp only [fwdRun, List.map_cons, List.map_nil, List.cons.injEq, and_true] at this ⊢
    simp only [this, and_self]
  have hw : Wanted fwConf fwNames (Grants.none.after fwConf.nftTimeout (fwdRun fwConf fwStarted [.request openSsh 5 true, .foreign reloadedKernel]).1)
      ⟨examplePeer, .tcp, 5800⟩ := .inl ⟨by decide, ⟨rfl, .inl ⟨rfl, rfl⟩⟩⟩
  refine ⟨fun h => ?_, (C86_emptied_iff fwConf fwNames hn fwKernel true fwStarted fwStarted_ok _ hl hr he (5000 * second) calmEnv rfl).2
    (.inl ⟨examplePeer, .Tcp 22, 5 + fwConf.nftTimeout, by decide +kernel, by decide +kernel⟩)⟩
  rcases (C86_emptied_iff fwConf fwNames hn fwKernel true fwStarted fwStarted_ok _ hl hr he (10 * second) calmEnv rfl).1 h with ⟨a, p, e, h1, h2⟩ | h
  · rw [hg] at h1
    have g1 : granted (.request openSsh 5 true) (some FwMessage.newAck) = some (examplePeer, .Tcp 22, 5) := by decide +kernel
    have g2 : granted (.foreign reloadedKernel) none = none := rfl
    simp only [Grants.after, Grants.step, g1, g2, Grants.none] at h1
    have h3 : ¬ 5 + fwConf.nftTimeout ≤ 10 * second := by decide +kernel
    split at h1
    · injection h1 with h1
      exact h3 (h1 ▸ h2)
    · cases h1
  · exact h _ hw

end Letmein.Props
