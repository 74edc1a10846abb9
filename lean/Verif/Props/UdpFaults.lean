import Verif.Props.UdpMore

/-!
# Properties C30, C31, C32: crashes, disturbances, wrong sizes

All three are false of the code as stated: a queue overflow leaves the counter of queued datagrams too high (C30), a datagram of
anybody can fail a session's receive (C31), and long datagrams are cut (C32). The negations are proved with witnesses, and the
properties are proved under the conditions that exclude these cases.
-/

namespace Letmein.Props

open Letmein Spec

/-! ## C30 -/

theorem total_set {l : List (SocketAddr × UdpConn)} (k : SocketAddr) (c : UdpConn) :
    total (assocSet l k c) = c.rxQueue.length + total (assocErase l k) := by
  rw [assocSet, total_cons]

theorem total_push {max : Nat} {d : UdpDisp} (hd : DispOk max d) (src : SocketAddr) (b : Arr MSG_SIZE) :
    total (assocSet d.conn src { connFor d src with rxQueue := (connFor d src).rxQueue ++ [b] }) = total d.conn + 1 := by
  rw [total_set]
  cases hc : assocGet d.conn src with
  | none =>
    rw [assocErase_of_none hc, connFor_of_none hc]
    simp
    omega
  | some c =>
    rw [total_erase hd.nodup hc, connFor_of_some hc]
    simp
    omega

/-- Without overflow the counter is exact and nothing panics. -/
theorem tryRecv_counted {max : Nat} {s : UdpSrv} {d : UdpDisp} (hc : d.conn = s.disp.conn) (hd : DispOk max d)
    (hn : d.nrQueued = total d.conn) (hmax : max * 4 ≤ USIZE_MAX) {i : SockIn}
    (hov : ∀ p data, i = .dgram p data → 56 ≤ data.length → ¬ QueueFull s p) :
    (d.tryRecv i).1 ≠ .panic ∧ (d.tryRecv i).2.nrQueued = total (d.tryRecv i).2.conn := by
  have := tryRecv_cases hd i
  generalize (d.tryRecv i).1 = r at this
  generalize (d.tryRecv i).2 = d' at this
  cases this with
  | idle => exact ⟨by simp, hn⟩
  | fail => exact ⟨by simp, hn⟩
  | short h => exact ⟨by simp, hn⟩
  | overflow h hcc hq => exact absurd (queueFull_of_get hc hcc hq) (hov _ _ rfl h)
  | full h hcc hl => exact ⟨by simp, hn⟩
  | @crash src data h hq hs hwhy =>
    exfalso
    have h1 := total_push hd src (Arr.replicate MSG_SIZE 0)
    have h2 := (hd.pushed hq hs)
    have h3 := total_le (fun e he => (h2.entry e he).2)
    have h4 := h2.size
    have h5 : (pushed d src (Arr.replicate MSG_SIZE 0)).conn =
      assocSet d.conn src { connFor d src with rxQueue := (connFor d src).rxQueue ++ [Arr.replicate MSG_SIZE 0] } := rfl
    rw [h5, h1] at h3
    rw [h5] at h4
    have h6 := Nat.mul_le_mul_right 4 h4
    rw [hd.max_eq] at hwhy
    omega
  | @push src data b _ _ _ _ _ =>
    refine ⟨by simp, ?_⟩
    show d.nrQueued + 1 = total (assocSet _ _ _)
    rw [total_push hd src b, hn]

theorem accept_counted {max : Nat} {d d' : UdpDisp} {i : SockIn} {r : R (Option SocketAddr)} (h : AcceptCase max d i r d')
    (ht : (d.tryRecv i).1 ≠ .panic ∧ (d.tryRecv i).2.nrQueued = total (d.tryRecv i).2.conn) :
    r ≠ .panic ∧ d'.nrQueued = total d'.conn := by
  cases h with
  | panic h => exact absurd h ht.1
  | err _ => exact ⟨by simp, ht.2⟩
  | none _ _ he => rw [he, (recvNotify_conn _).1, (recvNotify_conn _).2.2.1]; exact ⟨by simp, ht.2⟩
  | some _ _ _ _ _ _ h1 h2 _ => rw [h1, h2]; exact ⟨by simp, ht.2⟩

theorem recv_counted {max : Nat} {d d' : UdpDisp} {p : SocketAddr} {i : SockIn} {r : R (Option (Arr MSG_SIZE))} (hd : DispOk max d)
    (h : RecvFromCase d p i r d') (ht : (d.tryRecv i).1 ≠ .panic ∧ (d.tryRecv i).2.nrQueued = total (d.tryRecv i).2.conn) :
    r ≠ .panic ∧ d'.nrQueued = total d'.conn := by
  have hd1 := tryRecv_ok hd i
  cases h with
  | panic h => exact absurd h ht.1
  | err _ => exact ⟨by simp, ht.2⟩
  | none _ _ he => rw [he, (recvNotify_conn _).1, (recvNotify_conn _).2.2.1]; exact ⟨by simp, ht.2⟩
  | @underflow c _ hc hq hn =>
    exfalso
    have := total_erase hd1.nodup hc
    have hpos : 0 < c.rxQueue.length := List.length_pos_iff.2 hq
    rw [← ht.2] at this
    omega
  | @some _ c b q _ hc hq hn he =>
    rw [he, (recvNotify_conn _).1, (recvNotify_conn _).2.2.1]
    refine ⟨by simp, ?_⟩
    have := total_erase hd1.nodup hc
    simp only
    rw [total_set, ht.2, this, hq]
    simp

theorem step_counted {max : Nat} {s : UdpSrv} (hd : DispOk max s.disp) (hmax : max * 4 ≤ USIZE_MAX) (hc : s.crashed = false)
    (hn : s.disp.nrQueued = total s.disp.conn) {op : UdpOp} (ho : OrderOk s op) (hov : ¬ Overflow s op) :
    (udpStep s op).2.crashed = false ∧ (udpStep s op).2.disp.nrQueued = total (udpStep s op).2.disp.conn := by
  have hA : ∀ {w i r d'}, op = .accept w i → AcceptCase max (wakeAccept s.disp w) i r d' → r ≠ .panic ∧ d'.nrQueued = total d'.conn := by
    intro w i r d' hop h
    refine accept_counted h (tryRecv_counted (s := s) (wakeAccept_same _ _).1 (wakeAccept_ok hd w) ?_ hmax ?_)
    · rw [(wakeAccept_same _ _).1, (wakeAccept_same _ _).2.2]; exact hn
    · rintro p data rfl h56 hf
      exact hov ⟨p, _, by rw [hop]; exact dgramOf_of_accept h56, hf⟩
  have hR : ∀ {sid w i p r d'}, op = .recv sid w i → RecvFromCase (wakeRecv s.disp w) p i r d' →
      r ≠ .panic ∧ d'.nrQueued = total d'.conn := by
    intro sid w i p r d' hop h
    refine recv_counted (wakeRecv_ok hd w) h (tryRecv_counted (s := s) (wakeRecv_same _ _).1 (wakeRecv_ok hd w) ?_ hmax ?_)
    · rw [(wakeRecv_same _ _).1, (wakeRecv_same _ _).2.2.1]; exact hn
    · rintro p data rfl h56 hf
      exact hov ⟨p, _, by rw [hop]; exact dgramOf_of_recv h56, hf⟩
  have hq : ∀ p, total s.disp.conn = (queueOf s.disp p).length + total (assocErase s.disp.conn p) := by
    intro p
    unfold queueOf
    cases hg : assocGet s.disp.conn p with
    | none => rw [assocErase_of_none hg]; simp
    | some c => rw [total_erase hd.nodup hg]; simp
  have hstep := udpStep_cases hd op
  generalize (udpStep s op).1 = out at hstep
  generalize (udpStep s op).2 = s' at hstep
  cases hstep with
  | skip _ _ => exact ⟨hc, hn⟩
  | @reorder l =>
    refine ⟨hc, ?_⟩
    show s.disp.nrQueued = total l
    rw [hn]; exact total_perm (List.Perm.symm ho)
  | acceptPanic h => exact absurd rfl (hA rfl h).1
  | acceptNone h => exact ⟨hc, (hA rfl h).2⟩
  | acceptSome _ h => exact ⟨hc, (hA rfl h).2⟩
  | recvPanic _ _ h => exact absurd rfl (hR rfl h).1
  | recvNone _ _ h => exact ⟨hc, (hR rfl h).2⟩
  | recvErr _ _ h => exact ⟨hc, (hR rfl h).2⟩
  | recvSome _ _ _ h => exact ⟨hc, (hR rfl h).2⟩
  | @closePanic sid se d' _ _ h =>
    exfalso
    have := hq se.peer
    rcases disconnect_cases s.disp se.peer with ⟨h1, _⟩ | ⟨_, ⟨h1, h2, _⟩ | ⟨_, hx⟩⟩
    · omega
    · rw [h1] at this
      simp [total] at this
      rw [total] at hn
      omega
    · rw [hx] at h; cases h
  | @closeOk sid se d' _ _ h =>
    refine ⟨hc, ?_⟩
    have := hq se.peer
    rcases disconnect_cases s.disp se.peer with ⟨_, hx⟩ | ⟨_, ⟨_, _, hx⟩ | ⟨_, hx⟩⟩
    · rw [hx] at h; cases h
    · rw [hx] at h; cases h
    · rw [hx] at h; cases h
      show s.disp.nrQueued - (queueOf s.disp se.peer).length = total (assocErase s.disp.conn se.peer)
      rw [hn, this]
      omega

/-- **C30**, restricted: as long as no datagram arrives for a peer with four undelivered ones, the server does not crash
(assertions, subtraction underflow, overflow), and the counter of queued datagrams is exact. `max * 4` fits a `usize`, because
`Semaphore::new` (`/repo/letmeind/src/main.rs:163`) refuses more than `usize::MAX >> 3` connections. Missing for the full
property: queue overflows, see `C30_overflow_crashes`. -/
theorem C30_no_crash_partial (max : Nat) (hmax : max * 4 < 2 ^ 64) (ops : List UdpOp) (hl : OrderLegal (UdpSrv.new max) ops)
    (hov : NoOverflow (UdpSrv.new max) ops) :
    let s := (udpRun (UdpSrv.new max) ops).2
    s.crashed = false ∧ s.disp.nrQueued = (s.disp.conn.map (fun e => e.2.rxQueue.length)).sum ∧
      ∀ e ∈ (udpRun (UdpSrv.new max) ops).1, e.2 ≠ .panic := by
  have hmax : max * 4 ≤ USIZE_MAX := Nat.le_sub_one_of_lt hmax
  have key : ∀ (ops : List UdpOp) (s : UdpSrv), DispOk max s.disp → s.crashed = false → s.disp.nrQueued = total s.disp.conn →
      OrderLegal s ops → NoOverflow s ops → (udpRun s ops).2.crashed = false ∧
        (udpRun s ops).2.disp.nrQueued = total (udpRun s ops).2.disp.conn ∧ ∀ e ∈ (udpRun s ops).1, e.2 ≠ .panic := by
    intro ops
    induction ops with
    | nil => intro s _ hc hn _ _; exact ⟨hc, hn, by simp [udpRun]⟩
    | cons op ops ih =>
      intro s hd hc hn hl hov
      have h1 := step_counted hd hmax hc hn hl.1 hov.1
      obtain ⟨h2, h3, h4⟩ := ih _ (disp_step hd hl.1) h1.1 h1.2 hl.2 hov.2
      refine ⟨h2, h3, ?_⟩
      intro e he
      rw [udpRun] at he
      rcases List.mem_cons.1 he with rfl | he
      · have hstep := udpStep_cases hd op
        have hal := h1.1
        generalize (udpStep s op).1 = out at hstep
        generalize (udpStep s op).2 = s' at hstep hal
        cases hstep with
        | skip _ h => rcases h with rfl | rfl <;> simp
        | acceptPanic _ => cases hal
        | recvPanic _ _ _ => cases hal
        | closePanic _ _ _ => cases hal
        | _ => simp
      · exact h4 e he
  exact key ops (UdpSrv.new max) (DispOk.new max) rfl rfl hl hov

/-- The history contains a reordering and no overflow. -/
example : OrderLegal (UdpSrv.new 8) exHistory ∧ NoOverflow (UdpSrv.new 8) exHistory :=
  ⟨exHistory_legal, by
    have hq : ∀ s op, (∀ e ∈ s.disp.conn, e.2.rxQueue.length ≠ 4) → ¬ Overflow s op := by
      rintro s op h ⟨p, b, _, c, hc, hl⟩
      exact h _ (assocGet_mem hc) hl
    exact ⟨hq _ _ (by decide +kernel), hq _ _ (by decide +kernel), hq _ _ (by decide +kernel), hq _ _ (by decide +kernel),
      hq _ _ (by decide +kernel), hq _ _ (by decide +kernel), hq _ _ (by decide +kernel), trivial⟩⟩

/-- Five datagrams of one host are read before its session reads any; then the session ends (by timeout). -/
def crashHistory : List UdpOp :=
  [.accept .readable (.dgram exPeer (exData 1)), .accept .readable (.dgram exPeer (exData 2)),
   .accept .readable (.dgram exPeer (exData 3)), .accept .readable (.dgram exPeer (exData 4)),
   .accept .readable (.dgram exPeer (exData 5)), .close 0]

/-- **C30 is false**: with every connection limit, five datagrams of one unauthenticated host, read while its session has not
read any, crash the server when the session ends. -/
theorem C30_overflow_crashes (max : Nat) (h1 : 1 ≤ max) (hmax : max * 4 < 2 ^ 64) :
    OrderLegal (UdpSrv.new max) crashHistory ∧ WakeLegal (UdpSrv.new max) crashHistory ∧
      (udpRun (UdpSrv.new max) crashHistory).2.crashed = true := by
  refine ⟨⟨trivial, trivial, trivial, trivial, trivial, trivial, trivial⟩, ⟨trivial, trivial, trivial, trivial, trivial, trivial, trivial⟩, ?_⟩
  have hlen : ∀ k, ((exData k).take MSG_SIZE).length = MSG_SIZE := fun k => by simp [exData]; rfl
  have g1 : ¬ 1 > max := by omega
  have hmax : max * 4 ≤ USIZE_MAX := Nat.le_sub_one_of_lt hmax
  have g2 : ∀ n, n ≤ 4 → n ≤ USIZE_MAX := fun n h => Nat.le_trans h (by decide)
  have g3 : ∀ n, n ≤ 4 → n ≤ max * 4 := fun n h => by omega
  have e1 : ∀ k, (UdpDisp.new max).tryAccept (.dgram exPeer (exData k)) = (.ok (some exPeer),
      { conn := [(exPeer, { rxQueue := [⟨(exData k).take MSG_SIZE, hlen k⟩], peerAddr := exPeer, accepted := true })],
        maxConn := max, nrQueued := 1, acceptSig := true, recvSig := true }) := by
    intro k
    simp only [UdpDisp.tryAccept, UdpDisp.tryRecv, UdpDisp.new, hlen, dif_pos, assocGet, assocSet, assocErase, Option.getD_none]
    simp [g1, hmax, h1, acceptFirst, g3]
  have e2 : ∀ (q : List (Arr MSG_SIZE)) (k : UInt8), q.length < 4 →
      ({ conn := [(exPeer, { rxQueue := q, peerAddr := exPeer, accepted := true })], maxConn := max, nrQueued := q.length,
         acceptSig := true, recvSig := true } : UdpDisp).tryAccept (.dgram exPeer (exData k)) =
      (.ok none,
      { conn := [(exPeer, { rxQueue := q ++ [⟨(exData k).take MSG_SIZE, hlen k⟩], peerAddr := exPeer, accepted := true })],
        maxConn := max, nrQueued := q.length + 1, acceptSig := true, recvSig := true }) := by
    intro q k hq
    have a1 : q.length ≠ 4 := by omega
    have a2 : q.length ≤ 4 := by omega
    have a3 := g2 (q.length + 1) hq
    have a4 := g3 (q.length + 1) hq
    simp only [UdpDisp.tryAccept, UdpDisp.tryRecv, hlen, dif_pos, assocGet, assocSet, assocErase, if_true, Option.getD_some]
    simp [g1, hmax, h1, acceptFirst, a1, a2, a3, a4, UdpDisp.recvNotify]
  have e3 : ∀ (q : List (Arr MSG_SIZE)) (k : UInt8), q.length = 4 →
      ({ conn := [(exPeer, { rxQueue := q, peerAddr := exPeer, accepted := true })], maxConn := max, nrQueued := q.length,
         acceptSig := true, recvSig := true } : UdpDisp).tryAccept (.dgram exPeer (exData k)) =
      (.ok none, { conn := [], maxConn := max, nrQueued := 4, acceptSig := true, recvSig := true }) := by
    intro q k hq
    simp only [UdpDisp.tryAccept, UdpDisp.tryRecv, hlen, dif_pos, assocGet, assocSet, assocErase, if_true, Option.getD_some]
    simp [g1, hmax, h1, hq]
  have r1 : ∀ d, wakeAccept d .readable = d := fun d => rfl
  unfold crashHistory
  simp only [udpRun, udpStep, UdpSrv.new, r1, e1, Bool.false_eq_true, if_false]
  have e2' := e2 [⟨(exData 1).take MSG_SIZE, hlen 1⟩] 2 (by simp)
  have e2'' := e2 [⟨(exData 1).take MSG_SIZE, hlen 1⟩, ⟨(exData 2).take MSG_SIZE, hlen 2⟩] 3 (by simp)
  have e2''' := e2 [⟨(exData 1).take MSG_SIZE, hlen 1⟩, ⟨(exData 2).take MSG_SIZE, hlen 2⟩, ⟨(exData 3).take MSG_SIZE, hlen 3⟩] 4 (by simp)
  have e3' := e3 [⟨(exData 1).take MSG_SIZE, hlen 1⟩, ⟨(exData 2).take MSG_SIZE, hlen 2⟩, ⟨(exData 3).take MSG_SIZE, hlen 3⟩,
    ⟨(exData 4).take MSG_SIZE, hlen 4⟩] 5 (by simp)
  simp only [List.length_cons, List.length_nil, Nat.zero_add, Nat.reduceAdd, List.cons_append, List.nil_append] at e2' e2'' e2''' e3'
  simp only [e2', e2'', e2''', e3', Bool.false_eq_true, if_false]
  simp [UdpDisp.disconnect, UdpDisp.queueLen, assocGet, assocErase]

/-- **C30 is false**: the property as stated does not hold. -/
theorem C30_negation : ¬ ∀ (max : Nat) (ops : List UdpOp), 1 ≤ max → max * 4 < 2 ^ 64 → OrderLegal (UdpSrv.new max) ops →
    (udpRun (UdpSrv.new max) ops).2.crashed = false := by
  intro h
  have h1 := C30_overflow_crashes 8 (by decide) (by decide)
  have h2 := h 8 crashHistory (by decide) (by decide) h1.1
  rw [h1.2.2] at h2
  cases h2

/-! ## C31 -/

/-- **C31**, restricted: a receive round of a running session fails only if what it reads from the socket is rejected: a socket
error, a short datagram, a datagram for a full queue or of a new peer while the table is full. Missing for the full property:
such a datagram may come from anybody, see `C31_negation`. -/
theorem C31_failure_cause_partial {max : Nat} {s : UdpSrv} (hs : UdpReach max s) {sid : Nat} {p : SocketAddr}
    (ho : OpenSession s sid p) (w : Wake) (i : SockIn) (hf : (udpStep s (.recv sid w i)).1 = .failed) : Rejected s i := by
  refine Classical.byContradiction fun hr => ?_
  have hd := hs.ok
  have htake := tryRecv_taken (s := s) (wakeRecv_same _ _).1 (wakeRecv_same _ _).2.1 (wakeRecv_ok hd w) hr
  have hopen := ho
  unfold OpenSession at ho
  by_cases hcr : s.crashed = true
  · rw [crashed_step hcr] at hf; cases hf
  have hstep := udpStep_cases hd (.recv sid w i)
  generalize (udpStep s (.recv sid w i)).1 = out at hstep hf
  generalize (udpStep s (.recv sid w i)).2 = s' at hstep
  subst hf
  cases hstep with
  | skip hwhy _ =>
    rcases hwhy with h | ⟨sid', h1 | h1, h2⟩
    · exact hcr h
    · obtain ⟨w', i', h1⟩ := h1
      cases h1
      rcases h2 with h2 | ⟨se, h2, h3⟩
      · rw [h2] at ho; cases ho
      · rw [h2] at ho; cases ho; cases h3
    · cases h1
  | recvErr _ _ h =>
    cases h with
    | err h => exact htake h

/-- The state after one host has been accepted. -/
def oneSession : UdpSrv := (udpRun (UdpSrv.new 8) [.accept .readable (.dgram exPeer (exData 1))]).2

/-- A receive round that fails. -/
example : UdpReach 8 oneSession ∧ OpenSession oneSession 0 exPeer ∧
    (udpStep oneSession (.recv 0 .readable (.dgram exPeer [1]))).1 = .failed :=
  ⟨⟨[.accept .readable (.dgram exPeer (exData 1))], ⟨trivial, trivial⟩, rfl⟩, by unfold OpenSession; decide +kernel, by decide +kernel⟩

/-- **C31 is false**: an empty datagram of any other host fails the session of a peer that has itself sent a proper message. -/
theorem C31_negation : ¬ ∀ (max : Nat) (s : UdpSrv) (sid : Nat) (p : SocketAddr) (w : Wake) (q : SocketAddr) (data : Bytes),
    UdpReach max s → OpenSession s sid p → q ≠ p → (udpStep s (.recv sid w (.dgram q data))).1 ≠ .failed := by
  intro h
  refine h 8 oneSession 0 exPeer .readable exPeer2 [] ⟨_, ?_, rfl⟩ ?_ ?_ ?_
  · exact ⟨trivial, trivial⟩
  · unfold OpenSession; decide +kernel
  · decide
  · decide +kernel

/-! ## C32 -/

/-- **C32**, restricted: whatever a session receives is the first 56 bytes of a datagram of its peer that has at least 56.
In particular short datagrams are never delivered. Missing for the full property: longer datagrams are cut and delivered, see
`C32_negation`. -/
theorem C32_size_partial (max : Nat) (ops : List UdpOp) (hl : OrderLegal (UdpSrv.new max) ops) (p : SocketAddr) {b : Bytes}
    (hb : b ∈ deliveries p (udpRun (UdpSrv.new max) ops).1) :
    ∃ op data, op ∈ ops ∧ sockOf op = some (.dgram p data) ∧ 56 ≤ data.length ∧ b = data.take 56 := by
  have h := (C28_own_datagrams_only max ops hl p).subset hb
  unfold arrivals at h
  rw [List.mem_filterMap] at h
  obtain ⟨e, he, hdg⟩ := h
  obtain ⟨data, h1, h2, h3⟩ := dgramOf_inv hdg
  refine ⟨e.1, data, ?_, h1, h2, h3⟩
  have key : ∀ (ops : List UdpOp) (s : UdpSrv), (udpRun s ops).1.map (·.1) = ops := by
    intro ops
    induction ops with
    | nil => intro s; rfl
    | cons op ops ih => intro s; rw [udpRun]; simp [ih]
  rw [← key ops (UdpSrv.new max)]
  exact List.mem_map.2 ⟨e, he, rfl⟩

/-- **C32**, restricted to datagrams that are not too long: only datagrams of exactly 56 bytes are delivered, unchanged. -/
theorem C32_exact_size_partial (max : Nat) (ops : List UdpOp) (hl : OrderLegal (UdpSrv.new max) ops) (p : SocketAddr) {b : Bytes}
    (hshort : ∀ op ∈ ops, ∀ q data, sockOf op = some (.dgram q data) → data.length ≤ 56)
    (hb : b ∈ deliveries p (udpRun (UdpSrv.new max) ops).1) :
    ∃ op ∈ ops, sockOf op = some (.dgram p b) ∧ b.length = 56 := by
  obtain ⟨op, data, h1, h2, h3, h4⟩ := C32_size_partial max ops hl p hb
  have h5 := hshort op h1 p data h2
  have : data.take 56 = data := List.take_of_length_le h5
  rw [this] at h4
  subst h4
  exact ⟨op, h1, h2, by omega⟩

/-- A message that is delivered; no datagram of this history is too long. -/
example : exData 3 ∈ deliveries exPeer (udpRun (UdpSrv.new 8) exHistory).1 ∧
    ∀ op ∈ exHistory, ∀ q data, sockOf op = some (.dgram q data) → data.length ≤ 56 := by
  refine ⟨by decide +kernel, ?_⟩
  intro op hop q data h
  simp only [exHistory, List.mem_cons, List.not_mem_nil, or_false] at hop
  rcases hop with rfl | rfl | rfl | rfl | rfl | rfl | rfl <;> cases h <;> decide

/-- A datagram of 57 bytes arrives; the session reads it. -/
def longHistory : List UdpOp :=
  [.accept .readable (.dgram exPeer (exData 1 ++ [2])), .recv 0 .changed .wouldBlock]

/-- **C32 is false**: a datagram of 57 bytes is delivered, without its last byte. -/
theorem C32_negation : ¬ ∀ (max : Nat) (ops : List UdpOp) (p : SocketAddr) (b : Bytes), OrderLegal (UdpSrv.new max) ops →
    b ∈ deliveries p (udpRun (UdpSrv.new max) ops).1 → ∃ op ∈ ops, sockOf op = some (.dgram p b) := by
  intro h
  obtain ⟨op, hop, hs⟩ := h 8 longHistory exPeer (exData 1) ⟨trivial, trivial, trivial⟩ (by decide +kernel)
  simp only [longHistory, List.mem_cons, List.not_mem_nil, or_false] at hop
  rcases hop with rfl | rfl
  · simp only [sockOf, Option.some.injEq, SockIn.dgram.injEq] at hs
    exact absurd hs.2 (by decide)
  · cases hs

end Letmein.Props
