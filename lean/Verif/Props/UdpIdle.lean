import Verif.Spec.UdpIdle
import Verif.Lemmas.UdpJoint
import Verif.Props.UdpFaults

/-!
# Without traffic the server sleeps (C75)
-/

namespace Letmein.Props
open Letmein Spec

/-- A pending notification counts one. -/
def pend (b : Bool) : Nat := if b then 1 else 0

theorem tryRecv_quiet {d : UdpDisp} {i : SockIn} (h : ∀ p data, i ≠ .dgram p data) : (d.tryRecv i).2 = d := by
  cases i with
  | dgram p data => exact absurd rfl (h p data)
  | wouldBlock => rfl
  | fail => rfl

theorem recvNotify_acceptSig (d : UdpDisp) : d.recvNotify.acceptSig = d.acceptSig := by
  unfold UdpDisp.recvNotify; split <;> rfl

theorem tryAccept_acceptSig (d : UdpDisp) (i : SockIn) : (d.tryAccept i).2.acceptSig = (d.tryRecv i).2.acceptSig := by
  unfold UdpDisp.tryAccept
  cases d.tryRecv i with
  | mk r d1 =>
    cases r with
    | panic => rfl
    | err => rfl
    | ok _ =>
      simp only
      cases acceptFirst d1.conn with
      | none => exact recvNotify_acceptSig d1
      | some r => rfl

theorem tryRecvFrom_acceptSig (d : UdpDisp) (p : SocketAddr) (i : SockIn) : (d.tryRecvFrom p i).2.acceptSig = (d.tryRecv i).2.acceptSig := by
  unfold UdpDisp.tryRecvFrom
  cases d.tryRecv i with
  | mk r d1 =>
    cases r with
    | panic => rfl
    | err => rfl
    | ok _ =>
      simp only
      cases assocGet d1.conn p with
      | none => exact recvNotify_acceptSig d1
      | some c =>
        simp only
        cases c.rxQueue with
        | nil => exact recvNotify_acceptSig d1
        | cons b q =>
          simp only
          split
          · rfl
          · exact recvNotify_acceptSig _

theorem disconnect_sigs (d : UdpDisp) (p : SocketAddr) : (d.disconnect p).2.acceptSig = d.acceptSig ∧ (d.disconnect p).2.recvSig = d.recvSig ∧
    (d.disconnect p).2.nrQueued ≤ d.nrQueued := by
  unfold UdpDisp.disconnect
  simp only
  split
  · exact ⟨rfl, rfl, Nat.le_refl _⟩
  · split <;> exact ⟨rfl, rfl, Nat.sub_le _ _⟩

/-- A datagram read pays for a notification of the accepting task, a wake-up uses it up. -/
theorem step_accept_pend {s : UdpSrv} (ha : s.crashed = false) {op : UdpOp} (hw : WakeOk s op) :
    pend (udpStep s op).2.disp.acceptSig + pend (AcceptNotified op) ≤ pend s.disp.acceptSig + pend (Traffic op) := by
  have h1 : ∀ b, pend b ≤ 1 := by intro b; unfold pend; split <;> omega
  have hq : ∀ (d : UdpDisp) i, pend (d.tryRecv i).2.acceptSig ≤ pend d.acceptSig + pend (Traffic (.accept .readable i)) := by
    intro d i
    cases i with
    | dgram p data =>
      have := h1 (d.tryRecv (.dgram p data)).2.acceptSig
      show _ ≤ _ + 1
      omega
    | wouldBlock => exact Nat.le_refl _
    | fail => exact Nat.le_refl _
  unfold udpStep
  rw [if_neg (by rw [ha]; simp)]
  cases op with
  | reorder l => exact Nat.le_refl _
  | accept w i =>
    have h2 := hq (wakeAccept s.disp w) i
    have h3 : Traffic (.accept .readable i) = Traffic (.accept w i) := rfl
    rw [h3, ← tryAccept_acceptSig] at h2
    have h4 : pend ((wakeAccept s.disp w).tryAccept i).2.acceptSig + pend (AcceptNotified (.accept w i)) ≤
        pend s.disp.acceptSig + pend (Traffic (.accept w i)) := by
      cases w with
      | readable => exact h2
      | changed =>
        have h4 : s.disp.acceptSig = true := hw
        rw [h4]
        have h5 : pend (wakeAccept s.disp .changed).acceptSig = 0 := rfl
        have h6 : pend (AcceptNotified (.accept .changed i)) = 1 := rfl
        have h7 : pend true = 1 := rfl
        omega
    simp only
    cases hr : (wakeAccept s.disp w).tryAccept i with
    | mk r d =>
      rw [hr] at h4
      cases r with
      | panic => exact h4
      | err => exact h4
      | ok o => cases o <;> exact h4
  | recv sid w i =>
    simp only
    have h2 := hq (wakeRecv s.disp w) i
    have h3 : Traffic (.accept .readable i) = Traffic (.recv sid w i) := rfl
    have h4 : (wakeRecv s.disp w).acceptSig = s.disp.acceptSig := by unfold wakeRecv; split <;> rfl
    rw [h3, h4] at h2
    have h5 : AcceptNotified (.recv sid w i) = false := rfl
    rw [h5]
    cases hs : s.sessions[sid]? with
    | none => simp only [pend, Bool.false_eq_true, if_false]; omega
    | some se =>
      simp only
      cases hc : se.closed with
      | true => simp only [pend, Bool.false_eq_true, if_false, if_true]; omega
      | false =>
        rw [← tryRecvFrom_acceptSig _ se.peer] at h2
        simp only [Bool.false_eq_true, if_false]
        cases hr : (wakeRecv s.disp w).tryRecvFrom se.peer i with
        | mk r d =>
          rw [hr] at h2
          cases r with
          | panic => exact h2
          | err => exact h2
          | ok o => cases o <;> exact h2
  | close sid =>
    have h5 : AcceptNotified (.close sid) = false := rfl
    rw [h5]
    simp only
    cases hs : s.sessions[sid]? with
    | none => exact Nat.le_refl _
    | some se =>
      simp only
      cases hc : se.closed with
      | true => exact Nat.le_refl _
      | false =>
        simp only [Bool.false_eq_true, if_false]
        have h6 := (disconnect_sigs s.disp se.peer).1
        cases hr : s.disp.disconnect se.peer with
        | mk r d =>
          rw [hr] at h6
          simp only at h6
          cases r <;> simp only [h6] <;> exact Nat.le_refl _

theorem alive_start {s : UdpSrv} {ops : List UdpOp} (h : (udpRun s ops).2.crashed = false) : s.crashed = false := by
  induction ops generalizing s with
  | nil => exact h
  | cons op ops ih =>
    have := ih (s := (udpStep s op).2) h
    cases hc : s.crashed with
    | false => rfl
    | true =>
      unfold udpStep at this
      rw [hc, if_pos rfl] at this
      rw [hc] at this
      cases this

/-- **C75** (accepting). As long as the process lives, the accepting task is woken by notifications at most as often as datagrams have been read. -/
theorem C75_accept_wakeups (max : Nat) (ops : List UdpOp) (hw : WakeLegal (UdpSrv.new max) ops)
    (ha : (udpRun (UdpSrv.new max) ops).2.crashed = false) : acceptWakeups ops ≤ traffic ops := by
  have key : ∀ (ops : List UdpOp) (s : UdpSrv), WakeLegal s ops → (udpRun s ops).2.crashed = false →
      pend (udpRun s ops).2.disp.acceptSig + acceptWakeups ops ≤ pend s.disp.acceptSig + traffic ops := by
    intro ops
    induction ops with
    | nil => intro s _ _; exact Nat.le_refl _
    | cons op ops ih =>
      intro s hw ha
      have h1 := ih (udpStep s op).2 hw.2 ha
      have h2 := step_accept_pend (alive_start (ops := op :: ops) ha) hw.1
      have h3 : acceptWakeups (op :: ops) = acceptWakeups ops + pend (AcceptNotified op) := by
        unfold acceptWakeups pend; rw [List.countP_cons]
      have h4 : traffic (op :: ops) = traffic ops + pend (Traffic op) := by
        unfold traffic pend; rw [List.countP_cons]
      rw [h3, h4]
      show pend (udpRun (udpStep s op).2 ops).2.disp.acceptSig + _ ≤ _
      omega
  have := key ops _ hw ha
  have h0 : pend (UdpSrv.new max).disp.acceptSig = 0 := rfl
  omega

/-- The example history: one wake-up, three datagrams. -/
example : WakeLegal (UdpSrv.new 8) exHistory ∧ acceptWakeups exHistory = 1 ∧ traffic exHistory = 3 :=
  ⟨⟨trivial, trivial, trivial, trivial, by decide +kernel, by decide +kernel, trivial, trivial⟩, by decide +kernel, by decide +kernel⟩

/-! ## Sessions -/

theorem recvNotify_zero {d : UdpDisp} (h : d.nrQueued = 0) : d.recvNotify = d := by
  unfold UdpDisp.recvNotify
  rw [if_neg (by omega)]

/-- With nothing queued and nothing arriving, wake-ups only use up what is pending. -/
theorem step_recv_pend {s : UdpSrv} (ha : s.crashed = false) (h0 : s.disp.nrQueued = 0) {op : UdpOp} (hw : WakeOk s op) (hq : Traffic op = false)
    (ha' : (udpStep s op).2.crashed = false) :
    pend (udpStep s op).2.disp.recvSig + pend (RecvNotified s op) ≤ pend s.disp.recvSig ∧ (udpStep s op).2.disp.nrQueued = 0 := by
  have hquiet : ∀ i, Traffic (.accept .readable i) = false → ∀ p data, i ≠ .dgram p data := by
    rintro i h p data rfl
    cases h
  unfold udpStep at ha' ⊢
  rw [if_neg (by rw [ha]; simp)] at ha' ⊢
  cases op with
  | reorder l => exact ⟨Nat.le_refl _, h0⟩
  | accept w i =>
    have hd : ((wakeAccept s.disp w).tryAccept i).2.recvSig = s.disp.recvSig ∧ ((wakeAccept s.disp w).tryAccept i).2.nrQueued = 0 := by
      have h1 : (wakeAccept s.disp w).recvSig = s.disp.recvSig := by unfold wakeAccept; split <;> rfl
      have h2 : (wakeAccept s.disp w).nrQueued = 0 := by unfold wakeAccept; split <;> exact h0
      have h3 := tryRecv_quiet (d := wakeAccept s.disp w) (hquiet i hq)
      unfold UdpDisp.tryAccept
      cases hr : (wakeAccept s.disp w).tryRecv i with
      | mk r d1 =>
        rw [hr] at h3
        simp only at h3
        subst h3
        cases r with
        | panic => exact ⟨h1, h2⟩
        | err => exact ⟨h1, h2⟩
        | ok _ =>
          simp only
          cases acceptFirst (wakeAccept s.disp w).conn with
          | none => simp only [recvNotify_zero h2]; exact ⟨h1, h2⟩
          | some r => exact ⟨h1, h2⟩
    have h5 : RecvNotified s (.accept w i) = false := by cases w <;> rfl
    rw [h5]
    simp only
    cases hr : (wakeAccept s.disp w).tryAccept i with
    | mk r d =>
      rw [hr] at hd
      obtain ⟨h1, h2⟩ := hd
      cases r with
      | panic => exact ⟨by rw [← h1]; exact Nat.le_refl _, h2⟩
      | err => exact ⟨by rw [← h1]; exact Nat.le_refl _, h2⟩
      | ok o => cases o <;> exact ⟨by rw [← h1]; exact Nat.le_refl _, h2⟩
  | recv sid w i =>
    simp only at ha' ⊢
    cases hs : s.sessions[sid]? with
    | none =>
      have h5 : RecvNotified s (.recv sid w i) = false := by cases w <;> simp [RecvNotified, hs]
      rw [h5]
      exact ⟨Nat.le_refl _, h0⟩
    | some se =>
      rw [hs] at ha'
      simp only at ha' ⊢
      cases hc : se.closed with
      | true =>
        have h5 : RecvNotified s (.recv sid w i) = false := by cases w <;> simp [RecvNotified, hs, hc]
        rw [h5]
        exact ⟨Nat.le_refl _, h0⟩
      | false =>
        rw [hc] at ha'
        simp only [Bool.false_eq_true, if_false] at ha' ⊢
        have h3 := tryRecv_quiet (d := wakeRecv s.disp w) (hquiet i hq)
        have h2 : (wakeRecv s.disp w).nrQueued = 0 := by unfold wakeRecv; split <;> exact h0
        have hd : ((wakeRecv s.disp w).tryRecvFrom se.peer i).1 = .panic ∨ ((wakeRecv s.disp w).tryRecvFrom se.peer i).2 = wakeRecv s.disp w := by
          unfold UdpDisp.tryRecvFrom
          cases hr : (wakeRecv s.disp w).tryRecv i with
          | mk r d1 =>
            rw [hr] at h3
            simp only at h3
            subst h3
            cases r with
            | panic => exact .inl rfl
            | err => exact .inr rfl
            | ok _ =>
              simp only
              cases assocGet (wakeRecv s.disp w).conn se.peer with
              | none => exact .inr (recvNotify_zero h2)
              | some c =>
                simp only
                cases c.rxQueue with
                | nil => exact .inr (recvNotify_zero h2)
                | cons b q => simp only [h2, if_true]; exact .inl trivial
        have hp : pend (wakeRecv s.disp w).recvSig + pend (RecvNotified s (.recv sid w i)) ≤ pend s.disp.recvSig := by
          cases w with
          | readable => exact Nat.le_refl _
          | changed =>
            have h4 : s.disp.recvSig = true := hw
            simp only [wakeRecv, if_true, h4, RecvNotified, hs, hc, Bool.not_false, pend, Bool.false_eq_true, if_false]
            omega
        cases hr : (wakeRecv s.disp w).tryRecvFrom se.peer i with
        | mk r d =>
          rw [hr] at hd ha'
          cases r with
          | panic => cases ha'
          | err =>
            rcases hd with hd | hd
            · cases hd
            · simp only at hd; subst hd; exact ⟨hp, h2⟩
          | ok o =>
            rcases hd with hd | hd
            · cases hd
            · simp only at hd; subst hd; cases o <;> exact ⟨hp, h2⟩
  | close sid =>
    have h5 : RecvNotified s (.close sid) = false := rfl
    rw [h5]
    simp only
    cases hs : s.sessions[sid]? with
    | none => exact ⟨Nat.le_refl _, h0⟩
    | some se =>
      simp only
      cases hc : se.closed with
      | true => exact ⟨Nat.le_refl _, h0⟩
      | false =>
        simp only [Bool.false_eq_true, if_false]
        obtain ⟨-, h6, h7⟩ := disconnect_sigs s.disp se.peer
        cases hr : s.disp.disconnect se.peer with
        | mk r d =>
          rw [hr] at h6 h7
          simp only at h6 h7
          have h8 : d.nrQueued = 0 := by omega
          cases r <;> exact ⟨by simp only [h6]; exact Nat.le_refl _, h8⟩

theorem no_overflow_quiet {s : UdpSrv} {op : UdpOp} (h : Traffic op = false) : ¬ Overflow s op := by
  rintro ⟨p, b, hb, -⟩
  unfold dgramOf at hb
  unfold Traffic at h
  split at hb
  · rename_i q data he
    rw [he] at h
    cases h
  · cases hb

/-- **C75** (the part that holds). The server has been through any history without overflow, and nothing is queued. Then, as long as no datagram arrives, each of the
two notifications wakes a task at most once: the server falls asleep. -/
theorem C75_idle_partial (max : Nat) (hmax : max * 4 < 2 ^ 64) (ops : List UdpOp) (hl : OrderLegal (UdpSrv.new max) ops) (hov : NoOverflow (UdpSrv.new max) ops)
    (hempty : ∀ p, queueOf (udpRun (UdpSrv.new max) ops).2.disp p = []) (later : List UdpOp) (hl2 : OrderLegal (udpRun (UdpSrv.new max) ops).2 later)
    (hw : WakeLegal (udpRun (UdpSrv.new max) ops).2 later) (hq : traffic later = 0) :
    acceptWakeups later ≤ 1 ∧ recvWakeups (udpRun (UdpSrv.new max) ops).2 later ≤ 1 := by
  have hmax : max * 4 ≤ USIZE_MAX := Nat.le_sub_one_of_lt hmax
  have h := srvOk_run hmax ops _ (srvOk_new max) hl hov
  generalize (udpRun (UdpSrv.new max) ops).2 = s at h hempty hl2 hw
  have h0 : s.disp.nrQueued = 0 := by
    rw [h.counted]
    cases hc : s.disp.conn with
    | nil => rfl
    | cons e l =>
      rw [← hc]
      unfold total
      rw [List.sum_eq_zero_iff_forall_eq_nat]
      intro n hn
      obtain ⟨e, he, rfl⟩ := List.mem_map.1 hn
      have h1 : assocGet s.disp.conn e.1 = some e.2 := assocGet_of_mem h.disp.nodup he
      have h2 := hempty e.1
      unfold queueOf at h2
      rw [h1] at h2
      simp only [List.map_eq_nil_iff] at h2
      simp only [h2, List.length_nil]
  have key : ∀ (later : List UdpOp) (s : UdpSrv), SrvOk max s → s.disp.nrQueued = 0 → OrderLegal s later → WakeLegal s later → traffic later = 0 →
      acceptWakeups later ≤ pend s.disp.acceptSig ∧ recvWakeups s later ≤ pend s.disp.recvSig := by
    intro later
    induction later with
    | nil => intro s _ _ _ _ _; exact ⟨Nat.zero_le _, Nat.zero_le _⟩
    | cons op ops ih =>
      intro s h h0 hl hw hq
      have h4 : traffic (op :: ops) = traffic ops + pend (Traffic op) := by
        unfold traffic pend; rw [List.countP_cons]
      have h5 : Traffic op = false := by
        cases ht : Traffic op with
        | false => rfl
        | true => rw [ht] at h4; simp only [pend, if_true] at h4; omega
      have h6 := srvOk_step h hmax hl.1 (no_overflow_quiet h5)
      have h7 := step_accept_pend h.alive hw.1
      obtain ⟨h8, h9⟩ := step_recv_pend h.alive h0 hw.1 h5 h6.alive
      obtain ⟨h10, h11⟩ := ih _ h6 h9 hl.2 hw.2 (by omega)
      have h3 : acceptWakeups (op :: ops) = acceptWakeups ops + pend (AcceptNotified op) := by
        unfold acceptWakeups pend; rw [List.countP_cons]
      rw [h5] at h7
      have h12 : pend false = 0 := rfl
      refine ⟨by omega, ?_⟩
      show pend (RecvNotified s op) + recvWakeups (udpStep s op).2 ops ≤ _
      omega
  obtain ⟨h1, h2⟩ := key later s h h0 hl2 hw hq
  have h3 : ∀ b, pend b ≤ 1 := by intro b; unfold pend; split <;> omega
  exact ⟨Nat.le_trans h1 (h3 _), Nat.le_trans h2 (h3 _)⟩

/-- After the example history and its last wake-ups nothing is queued. -/
example : (∀ e ∈ (udpRun (UdpSrv.new 8) exHistory).2.disp.conn, e.2.rxQueue = []) ∧
    WakeLegal (udpRun (UdpSrv.new 8) (exHistory.take 4)).2 [.accept .changed .wouldBlock, .recv 1 .changed .wouldBlock] ∧
    recvWakeups (udpRun (UdpSrv.new 8) (exHistory.take 4)).2 [.accept .changed .wouldBlock, .recv 1 .changed .wouldBlock] = 1 :=
  ⟨by decide +kernel, ⟨by decide +kernel, by decide +kernel, trivial⟩, by decide +kernel⟩

theorem loop_wakeups {s : UdpSrv} {op : UdpOp} (hfix : (udpStep s op).2 = s) (ho : OrderOk s op) (hw : WakeOk s op) (hn : RecvNotified s op = true)
    (hq : Traffic op = false) (n : Nat) : OrderLegal s (List.replicate n op) ∧ WakeLegal s (List.replicate n op) ∧ traffic (List.replicate n op) = 0 ∧
      recvWakeups s (List.replicate n op) = n := by
  induction n with
  | zero => exact ⟨trivial, trivial, rfl, rfl⟩
  | succ n ih =>
    obtain ⟨h1, h2, h3, h4⟩ := ih
    refine ⟨⟨ho, by rw [hfix]; exact h1⟩, ⟨hw, by rw [hfix]; exact h2⟩, ?_, ?_⟩
    · unfold traffic at h3 ⊢
      rw [List.replicate_succ, List.countP_cons, h3, hq]
      rfl
    · rw [List.replicate_succ, recvWakeups, hfix, h4, hn, if_pos rfl, Nat.add_comm]

/-- Two hosts are accepted; the first session reads its datagram, the second one's task is busy. -/
def busyHistory : List UdpOp :=
  [.accept .readable (.dgram exPeer (exData 1)), .accept .readable (.dgram exPeer2 (exData 2)), .recv 0 .readable .wouldBlock]

/-- **C75 is false** (a datagram that is not fetched). While one datagram waits for a session that does not receive, any number of wake-ups of
another session may follow without any further datagram: that session polls. -/
theorem C75_negation_waiting : ∃ ops, OrderLegal (UdpSrv.new 8) ops ∧ WakeLegal (UdpSrv.new 8) ops ∧ NoOverflow (UdpSrv.new 8) ops ∧
    ∀ n, ∃ later, OrderLegal (udpRun (UdpSrv.new 8) ops).2 later ∧ WakeLegal (udpRun (UdpSrv.new 8) ops).2 later ∧ traffic later = 0 ∧
      recvWakeups (udpRun (UdpSrv.new 8) ops).2 later = n := by
  have hq : ∀ s op, (∀ e ∈ s.disp.conn, e.2.rxQueue.length ≠ 4) → ¬ Overflow s op := by
    rintro s op h ⟨p, b, _, hf⟩
    exact not_full h p hf
  refine ⟨busyHistory, ⟨trivial, trivial, trivial, trivial⟩, ⟨trivial, trivial, trivial, trivial⟩,
    ⟨hq _ _ (by decide +kernel), hq _ _ (by decide +kernel), hq _ _ (by decide +kernel), trivial⟩, fun n =>
    ⟨List.replicate n (.recv 0 .changed .wouldBlock), loop_wakeups (s := (udpRun (UdpSrv.new 8) busyHistory).2) (op := .recv 0 .changed .wouldBlock) rfl trivial
      (by decide +kernel) (by decide +kernel) (by decide +kernel) n⟩⟩

/-- Two hosts are accepted, the second one's session has read its datagram. The first one sends four more: its queue overflows. -/
def leakHistory : List UdpOp :=
  [.accept .readable (.dgram exPeer (exData 1)), .accept .readable (.dgram exPeer2 (exData 2)), .recv 1 .readable .wouldBlock,
   .accept .readable (.dgram exPeer (exData 3)), .accept .readable (.dgram exPeer (exData 4)), .accept .readable (.dgram exPeer (exData 5)),
   .accept .readable (.dgram exPeer (exData 6))]

/-- **C75 is false** (after an overflow). Five datagrams of one host are enough: nothing is queued any more and nothing arrives, but the counter of queued
datagrams is wrong, and the other host's session is woken again and again. -/
theorem C75_negation_overflow : ∃ ops, OrderLegal (UdpSrv.new 8) ops ∧ WakeLegal (UdpSrv.new 8) ops ∧ (udpRun (UdpSrv.new 8) ops).2.crashed = false ∧
    (∀ e ∈ (udpRun (UdpSrv.new 8) ops).2.disp.conn, e.2.rxQueue = []) ∧
    ∀ n, ∃ later, OrderLegal (udpRun (UdpSrv.new 8) ops).2 later ∧ WakeLegal (udpRun (UdpSrv.new 8) ops).2 later ∧ traffic later = 0 ∧
      recvWakeups (udpRun (UdpSrv.new 8) ops).2 later = n := by
  refine ⟨leakHistory, ⟨trivial, trivial, trivial, trivial, trivial, trivial, trivial, trivial⟩,
    ⟨trivial, trivial, trivial, trivial, trivial, trivial, trivial, trivial⟩, by decide +kernel, by decide +kernel, fun n =>
    ⟨List.replicate n (.recv 1 .changed .wouldBlock), loop_wakeups (s := (udpRun (UdpSrv.new 8) leakHistory).2) (op := .recv 1 .changed .wouldBlock) rfl trivial
      (by decide +kernel) (by decide +kernel) (by decide +kernel) n⟩⟩

end Letmein.Props
