import Verif.Props.Udp

/-!
# Properties C28 (completeness) to C32 and C50 to C52: the UDP server
-/

namespace Letmein.Props

open Letmein Spec

/-! ## C28: nothing is lost without a reason -/

theorem queueFull_of_get {s : UdpSrv} {d : UdpDisp} (hd : d.conn = s.disp.conn) {p : SocketAddr} {c : UdpConn}
    (h : assocGet d.conn p = some c) (hq : c.rxQueue.length = 4) : QueueFull s p := ⟨c, hd ▸ h, hq⟩

/-- The socket's datagram is queued, unless there is a reason not to. -/
theorem tryRecv_queue_eq {max : Nat} {s : UdpSrv} {d : UdpDisp} (hc : d.conn = s.disp.conn) (hm : d.maxConn = s.disp.maxConn)
    (hd : DispOk max d) (i : SockIn) (p : SocketAddr) (hnp : (d.tryRecv i).1 ≠ .panic)
    (ht : ∀ data, i = .dgram p data → 56 ≤ data.length → ¬ QueueFull s p ∧ (Unconnected s p → s.disp.conn.length < s.disp.maxConn)) :
    queueOf (d.tryRecv i).2 p = queueOf s.disp p ++ sockArr p i := by
  have hq0 : queueOf d p = queueOf s.disp p := queueOf_congr hc p
  have := tryRecv_cases hd i
  generalize (d.tryRecv i).1 = r at this hnp
  generalize (d.tryRecv i).2 = d' at this
  cases this with
  | idle => simp [sockArr, hq0]
  | fail => simp [sockArr, hq0]
  | @short src data h =>
    rw [sockArr, if_neg (by omega), hq0, List.append_nil]
  | @overflow src data c h hcc hq =>
    have hp : p ≠ src := by
      rintro rfl
      exact (ht data rfl h).1 (queueFull_of_get hc hcc hq)
    rw [sockArr, if_neg (fun hh => hp hh.1.symm), List.append_nil, ← hq0]
    unfold queueOf
    rw [assocGet_erase_ne _ hp]
  | @full src data h hcc hl =>
    have hp : p ≠ src := by
      rintro rfl
      have := (ht data rfl h).2 (by unfold Unconnected; rw [← hc]; exact hcc)
      rw [hc, hm] at hl
      omega
    rw [sockArr, if_neg (fun hh => hp hh.1.symm), List.append_nil, hq0]
  | crash _ _ _ _ => exact absurd rfl hnp
  | @push src data b h hb hq hs hn =>
    rw [pushed_queue, hq0, sockArr]
    by_cases hp : src = p
    · rw [if_pos hp, if_pos ⟨hp, h⟩, hb]
    · rw [if_neg hp, if_neg (fun hh => hp hh.1)]

theorem crashed_step {s : UdpSrv} (hc : s.crashed = true) (op : UdpOp) : udpStep s op = (.none, s) := by
  unfold udpStep
  rw [if_pos hc]

theorem dgramOf_of_accept {p : SocketAddr} {w : Wake} {data : Bytes} (h : 56 ≤ data.length) :
    dgramOf p (.accept w (.dgram p data)) = some (data.take 56) := by
  simp [dgramOf, sockOf, h]

theorem dgramOf_of_recv {p : SocketAddr} {sid : Nat} {w : Wake} {data : Bytes} (h : 56 ≤ data.length) :
    dgramOf p (.recv sid w (.dgram p data)) = some (data.take 56) := by
  simp [dgramOf, sockOf, h]

theorem step_flow_eq {max : Nat} {s : UdpSrv} (hd : DispOk max s.disp) {op : UdpOp} (ho : OrderOk s op) (peers : List SocketAddr)
    (hp : (s.sessions.map (·.peer)) <+: peers) (p : SocketAddr) (hh : Harmless p s op) :
    (deliveryOf peers p (op, (udpStep s op).1)).toList ++ queueOf (udpStep s op).2.disp p =
      queueOf s.disp p ++ (dgramOf p op).toList := by
  have hpeer : ∀ {sid : Nat} {se : UdpSession}, s.sessions[sid]? = some se → peers[sid]? = some se.peer := by
    intro sid se h
    obtain ⟨t, rfl⟩ := hp
    have : (s.sessions.map (·.peer))[sid]? = some se.peer := by rw [List.getElem?_map, h]; rfl
    rw [List.getElem?_append_left, this]
    exact (List.getElem?_eq_some_iff.1 this).1
  have hcr : s.crashed = false := by
    cases h : s.crashed with
    | false => rfl
    | true =>
      have := hh.alive
      rw [crashed_step h op] at this
      exact h ▸ this
  have hal := hh.alive
  have := udpStep_cases hd op
  generalize (udpStep s op).1 = out at this
  generalize (udpStep s op).2 = s' at this hal
  cases this with
  | skip hwhy h =>
    have h1 : deliveryOf peers p (op, out) = none := by rcases h with rfl | rfl <;> cases op <;> rfl
    have h2 : dgramOf p op = none := by
      cases hdg : dgramOf p op with
      | none => rfl
      | some b =>
        have hr := (hh.takes b hdg).1
        rcases hwhy with hwhy | ⟨sid, hop, hse⟩
        · rw [hcr] at hwhy; cases hwhy
        · rcases hop with ⟨w, i, rfl⟩ | rfl
          · obtain ⟨q, hq⟩ := hr
            unfold OpenSession at hq
            rcases hse with h | ⟨se, h, hcl⟩
            · rw [h] at hq; cases hq
            · rw [h] at hq; cases hq; cases hcl
          · exact hr.elim
    rw [h1, h2]
    simp
  | @reorder l =>
    have : queueOf { s.disp with conn := l } p = queueOf s.disp p := by
      unfold queueOf
      simp only
      rw [assocGet_perm hd.nodup ho]
    show [] ++ queueOf { s.disp with conn := l } p = _ ++ []
    simp [this]
  | acceptPanic _ => cases hal
  | @acceptNone w i d' h =>
    rw [dgramOf_accept]
    have hnp : ((wakeAccept s.disp w).tryRecv i).1 ≠ .panic := by
      cases h with
      | err h => rw [h]; simp
      | none h _ _ => rw [h]; simp
    show [] ++ queueOf d' p = _
    rw [accept_queue h, List.nil_append]
    refine tryRecv_queue_eq (wakeAccept_same _ _).1 (wakeAccept_same _ _).2.1 (wakeAccept_ok hd w) i p hnp ?_
    rintro data rfl h56
    exact (hh.takes _ (dgramOf_of_accept h56)).2
  | @acceptSome w i q d' _ h =>
    rw [dgramOf_accept]
    have hnp : ((wakeAccept s.disp w).tryRecv i).1 ≠ .panic := by
      cases h with
      | some h _ _ _ _ _ _ _ _ => rw [h]; simp
    show [] ++ queueOf d' p = _
    rw [accept_queue h, List.nil_append]
    refine tryRecv_queue_eq (wakeAccept_same _ _).1 (wakeAccept_same _ _).2.1 (wakeAccept_ok hd w) i p hnp ?_
    rintro data rfl h56
    exact (hh.takes _ (dgramOf_of_accept h56)).2
  | recvPanic _ _ _ => cases hal
  | @recvNone sid w i se d' hs ho h =>
    rw [dgramOf_recv]
    cases h with
    | none hok _ he =>
      show [] ++ queueOf d' p = _
      rw [he, queueOf_congr (recvNotify_conn _).1, List.nil_append]
      refine tryRecv_queue_eq (wakeRecv_same _ _).1 (wakeRecv_same _ _).2.1 (wakeRecv_ok hd w) i p (by rw [hok]; simp) ?_
      rintro data rfl h56
      exact (hh.takes _ (dgramOf_of_recv h56)).2
  | @recvErr sid w i se d' hs ho h =>
    rw [dgramOf_recv]
    cases h with
    | err herr =>
      show [] ++ queueOf ((wakeRecv s.disp w).tryRecv i).2 p = _
      rw [List.nil_append]
      refine tryRecv_queue_eq (wakeRecv_same _ _).1 (wakeRecv_same _ _).2.1 (wakeRecv_ok hd w) i p (by rw [herr]; simp) ?_
      rintro data rfl h56
      exact (hh.takes _ (dgramOf_of_recv h56)).2
  | @recvSome sid w i se b d' _ hs ho h =>
    rw [dgramOf_recv]
    cases h with
    | @some _ c _ q hok hc hq _ he =>
      have hd1 : queueOf d' p = if p = se.peer then q.map (·.val) else queueOf ((wakeRecv s.disp w).tryRecv i).2 p := by
        rw [he, queueOf_congr (recvNotify_conn _).1]
        by_cases h : p = se.peer
        · rw [if_pos h, h]; exact queueOf_set_self _ _ _ _ _ _
        · rw [if_neg h]; exact queueOf_set_ne _ h _ _ _ _
      have hE : queueOf ((wakeRecv s.disp w).tryRecv i).2 p = queueOf s.disp p ++ sockArr p i := by
        refine tryRecv_queue_eq (wakeRecv_same _ _).1 (wakeRecv_same _ _).2.1 (wakeRecv_ok hd w) i p (by rw [hok]; simp) ?_
        rintro data rfl h56
        exact (hh.takes _ (dgramOf_of_recv h56)).2
      rw [← hE]
      show _ ++ queueOf d' p = _
      rw [hd1]
      simp only [deliveryOf, hpeer hs, Option.some.injEq]
      by_cases h : p = se.peer
      · subst h
        rw [if_pos rfl, if_pos rfl]
        unfold queueOf
        rw [hc]
        simp only [hq]
        rfl
      · rw [if_neg h, if_neg (fun e => h e.symm)]
        rfl
  | closePanic _ _ _ => cases hal
  | @closeOk sid se d' hs hopen h =>
    have hne : p ≠ se.peer := by
      rintro rfl
      refine hh.stays sid rfl ?_
      unfold OpenSession
      rw [hs, ← hopen]
    show [] ++ queueOf d' p = _ ++ []
    rw [List.nil_append, List.append_nil]
    rcases disconnect_cases s.disp se.peer with ⟨_, hx⟩ | ⟨_, ⟨_, _, hx⟩ | ⟨_, hx⟩⟩
    · rw [hx] at h; cases h
    · rw [hx] at h; cases h
    · rw [hx] at h; cases h
      unfold queueOf
      simp only [assocGet_erase_ne _ hne]

theorem run_flow_eq {max : Nat} {s : UdpSrv} (hd : DispOk max s.disp) {ops : List UdpOp} (ho : OrderLegal s ops)
    (peers : List SocketAddr) (hp : (udpRun s ops).2.sessions.map (·.peer) <+: peers) (p : SocketAddr) (hh : HarmlessRun p s ops) :
    (udpRun s ops).1.filterMap (deliveryOf peers p) ++ queueOf (udpRun s ops).2.disp p =
      queueOf s.disp p ++ arrivals p (udpRun s ops).1 := by
  induction ops generalizing s with
  | nil => simp [udpRun, arrivals]
  | cons op ops ih =>
    have hd1 := disp_step hd ho.1
    have h1 := ih hd1 ho.2 hp hh.2
    have hpre : s.sessions.map (·.peer) <+: peers :=
      List.IsPrefix.trans ⟨_, (run_peers hd (ops := op :: ops) ho).symm⟩ hp
    have h2 := step_flow_eq hd ho.1 peers hpre p hh.1
    rw [udpRun]
    simp only
    have e1 : ((op, (udpStep s op).1) :: (udpRun (udpStep s op).2 ops).1).filterMap (deliveryOf peers p) =
        (deliveryOf peers p (op, (udpStep s op).1)).toList ++ (udpRun (udpStep s op).2 ops).1.filterMap (deliveryOf peers p) := by
      rw [List.filterMap_cons]
      cases deliveryOf peers p (op, (udpStep s op).1) <;> rfl
    have e2 : arrivals p ((op, (udpStep s op).1) :: (udpRun (udpStep s op).2 ops).1) =
        (dgramOf p op).toList ++ arrivals p (udpRun (udpStep s op).2 ops).1 := by
      unfold arrivals
      rw [List.filterMap_cons]
      cases dgramOf p op <;> rfl
    rw [e1, e2, List.append_assoc, h1, ← List.append_assoc, h2, List.append_assoc]

/-- **C28**, completeness: unless a queue of the peer overflows, the table is full, or a session of the peer ends, every
datagram of the peer is delivered to its sessions or still waits in its queue, in order. -/
theorem C28_nothing_lost (max : Nat) (ops : List UdpOp) (hl : OrderLegal (UdpSrv.new max) ops) (p : SocketAddr)
    (hh : HarmlessRun p (UdpSrv.new max) ops) :
    deliveries p (udpRun (UdpSrv.new max) ops).1 ++ queueOf (udpRun (UdpSrv.new max) ops).2.disp p =
      arrivals p (udpRun (UdpSrv.new max) ops).1 := by
  have hd := DispOk.new max
  have h := run_flow_eq (s := UdpSrv.new max) hd hl _ (List.prefix_refl _) p hh
  rw [run_peers (s := UdpSrv.new max) hd hl] at h
  exact h

theorem not_full {s : UdpSrv} (h : ∀ e ∈ s.disp.conn, e.2.rxQueue.length ≠ 4) (p : SocketAddr) : ¬ QueueFull s p := by
  rintro ⟨c, hc, hl⟩
  exact h _ (assocGet_mem hc) hl

/-- The history loses nothing of the second host, whose message was read in a round of the first host's session. -/
example : HarmlessRun exPeer2 (UdpSrv.new 8) exHistory := by
  refine ⟨⟨by decide +kernel, ?_, ?_⟩, ⟨by decide +kernel, ?_, ?_⟩, ⟨by decide +kernel, ?_, ?_⟩, ⟨by decide +kernel, ?_, ?_⟩,
    ⟨by decide +kernel, ?_, ?_⟩, ⟨by decide +kernel, ?_, ?_⟩, ⟨by decide +kernel, ?_, ?_⟩, trivial⟩
  case refine_3 =>
    exact fun b _ => ⟨⟨exPeer, by unfold OpenSession; decide +kernel⟩, not_full (by decide +kernel) _, fun _ => by decide +kernel⟩
  case refine_14 =>
    intro sid h
    cases h
    unfold OpenSession
    decide +kernel
  all_goals first
    | (intro sid h; cases h)
    | (intro b h; exact absurd h (by rw [show dgramOf exPeer2 _ = none by decide +kernel]; simp))

/-- Nothing is rejected, so the socket's datagram is taken. -/
theorem tryRecv_taken {max : Nat} {s : UdpSrv} {d : UdpDisp} (hc : d.conn = s.disp.conn) (hm : d.maxConn = s.disp.maxConn)
    (hd : DispOk max d) {i : SockIn} (hr : ¬ Rejected s i) : (d.tryRecv i).1 ≠ .err := by
  have := tryRecv_cases hd i
  generalize (d.tryRecv i).1 = r at this
  generalize (d.tryRecv i).2 = d' at this
  cases this with
  | idle => simp
  | fail => exact absurd trivial hr
  | short h => exact absurd (.inl h) hr
  | overflow h hcc hq => exact absurd (.inr (.inl (queueFull_of_get hc hcc hq))) hr
  | full h hcc hl => exact absurd (.inr (.inr ⟨by unfold Unconnected; rw [← hc]; exact hcc, by rw [← hc, ← hm]; exact hl⟩)) hr
  | crash _ _ _ _ => simp
  | push _ _ _ _ _ => simp

theorem not_rejected_takes {s : UdpSrv} {d : UdpDisp} {max : Nat} (hd : DispOk max s.disp) {i : SockIn} (hr : ¬ Rejected s i) {p : SocketAddr} :
    ∀ data, i = .dgram p data → 56 ≤ data.length → ¬ QueueFull s p ∧ (Unconnected s p → s.disp.conn.length < s.disp.maxConn) := by
  rintro data rfl h56
  refine ⟨fun h => hr (.inr (.inl h)), fun h => ?_⟩
  have h1 := hd.size
  rw [← hd.max_eq] at h1
  rcases Nat.lt_or_eq_of_le h1 with h2 | h2
  · exact h2
  · exact absurd (.inr (.inr ⟨h, h2⟩)) hr

theorem delivers {max : Nat} {s : UdpSrv} (hd : DispOk max s.disp) {sid : Nat} {p : SocketAddr} (ho : OpenSession s sid p)
    (w : Wake) {i : SockIn} (hr : ¬ Rejected s i) (halive : (udpStep s (.recv sid w i)).2.crashed = false) (hc : s.crashed = false)
    {b : Bytes} {rest : List Bytes} (hq : queueOf s.disp p ++ (dgramOf p (.recv sid w i)).toList = b :: rest) :
    ∃ a : Arr MSG_SIZE, a.val = b ∧ (udpStep s (.recv sid w i)).1 = .got a ∧ queueOf (udpStep s (.recv sid w i)).2.disp p = rest := by
  rw [dgramOf_recv] at hq
  have hstep := udpStep_cases hd (.recv sid w i)
  have hflow := tryRecv_queue_eq (s := s) (wakeRecv_same _ _).1 (wakeRecv_same _ _).2.1 (wakeRecv_ok hd w) i p
  have htake := tryRecv_taken (s := s) (wakeRecv_same _ _).1 (wakeRecv_same _ _).2.1 (wakeRecv_ok hd w) hr
  have hnr := not_rejected_takes (d := s.disp) hd hr (p := p)
  unfold OpenSession at ho
  generalize (udpStep s (.recv sid w i)).1 = out at hstep
  generalize (udpStep s (.recv sid w i)).2 = s' at hstep halive
  cases hstep with
  | skip hwhy _ =>
    rcases hwhy with h | ⟨sid', h1 | h1, h2⟩
    · rw [hc] at h; cases h
    · obtain ⟨w', i', h1⟩ := h1
      cases h1
      rcases h2 with h2 | ⟨se, h2, h3⟩
      · rw [h2] at ho; cases ho
      · rw [h2] at ho; cases ho; cases h3
    · cases h1
  | recvPanic _ _ _ => cases halive
  | @recvNone _ _ _ se d' hse _ h =>
    rw [hse] at ho
    cases ho
    cases h with
    | none hok hqe _ =>
      rw [hflow (by rw [hok]; simp) hnr, hq] at hqe
      cases hqe
  | @recvErr _ _ _ se d' hse _ h =>
    cases h with
    | err h => exact absurd h htake
  | @recvSome _ _ _ se a d' _ hse _ h =>
    rw [hse] at ho
    cases ho
    cases h with
    | @some _ c _ q hok hcc hqq _ he =>
      have h1 := hflow (by rw [hok]; simp) hnr
      rw [hq] at h1
      unfold queueOf at h1
      rw [hcc] at h1
      simp only [hqq, List.map_cons, List.cons.injEq] at h1
      refine ⟨a, h1.1, rfl, ?_⟩
      show queueOf d' p = rest
      rw [he, queueOf_congr (recvNotify_conn _).1, queueOf_set_self]
      exact h1.2

/-- **C28**, progress: a session's receive round returns the oldest undelivered datagram of its peer, if there is one
(including one read in this very round) and the socket's datagram is not rejected. -/
theorem C28_delivers {max : Nat} {s : UdpSrv} (hs : UdpReach max s) {sid : Nat} {p : SocketAddr} (ho : OpenSession s sid p)
    (w : Wake) {i : SockIn} (hr : ¬ Rejected s i) (halive : (udpStep s (.recv sid w i)).2.crashed = false) (hc : s.crashed = false)
    {b : Bytes} {rest : List Bytes} (hq : queueOf s.disp p ++ (dgramOf p (.recv sid w i)).toList = b :: rest) :
    ∃ a : Arr MSG_SIZE, a.val = b ∧ (udpStep s (.recv sid w i)).1 = .got a ∧ queueOf (udpStep s (.recv sid w i)).2.disp p = rest :=
  delivers hs.ok ho w hr halive hc hq

/-- The state of the history after `n` operations is reachable. -/
theorem exHistory_reach (n : Nat) : UdpReach 8 (udpRun (UdpSrv.new 8) (exHistory.take n)).2 := by
  have key : ∀ (ops : List UdpOp) (s : UdpSrv) (n : Nat), OrderLegal s ops → OrderLegal s (ops.take n) := by
    intro ops
    induction ops with
    | nil => intro s n _; rw [List.take_nil]; trivial
    | cons op ops ih =>
      intro s n h
      cases n with
      | zero => trivial
      | succ n => exact ⟨h.1, ih _ n h.2⟩
  exact ⟨_, key _ _ n exHistory_legal, rfl⟩

/-- The state of the example history after `n` operations. -/
def exState (n : Nat) : UdpSrv := (udpRun (UdpSrv.new 8) (exHistory.take n)).2

/-- In the third operation the session's queue is empty, and the datagram read in this round is delivered. -/
example : UdpReach 8 (exState 2) ∧ OpenSession (exState 2) 0 exPeer ∧ ¬ Rejected (exState 2) (.dgram exPeer (exData 3)) ∧
    (udpStep (exState 2) (.recv 0 .readable (.dgram exPeer (exData 3)))).2.crashed = false ∧ (exState 2).crashed = false ∧
    queueOf (exState 2).disp exPeer ++ (dgramOf exPeer (.recv 0 .readable (.dgram exPeer (exData 3)))).toList = exData 3 :: [] := by
  refine ⟨exHistory_reach 2, by unfold OpenSession; decide +kernel, ?_, by decide +kernel, by decide +kernel, by decide +kernel⟩
  rintro (h | h | ⟨_, h⟩)
  · exact absurd h (by decide)
  · exact not_full (by decide +kernel) _ h
  · exact absurd h (by decide +kernel)

/-! ## C29 -/

theorem tryRecv_get {max : Nat} {d : UdpDisp} (hd : DispOk max d) (i : SockIn) (p : SocketAddr) :
    -- unchanged, removed by overflow, or a datagram of `p` was queued
    (assocGet (d.tryRecv i).2.conn p = assocGet d.conn p) ∨
    (∃ c data, i = .dgram p data ∧ 56 ≤ data.length ∧ assocGet d.conn p = some c ∧ c.rxQueue.length = 4 ∧
      (d.tryRecv i).1 = .err ∧ assocGet (d.tryRecv i).2.conn p = none) ∨
    (∃ data b, i = .dgram p data ∧ 56 ≤ data.length ∧ (d.tryRecv i).1 = .ok () ∧
      assocGet (d.tryRecv i).2.conn p = some { connFor d p with rxQueue := (connFor d p).rxQueue ++ [b] } ∧
      (d.tryRecv i).2.acceptSig = (d.acceptSig || !(connFor d p).accepted)) := by
  have := tryRecv_cases hd i
  generalize (d.tryRecv i).1 = r at this
  generalize (d.tryRecv i).2 = d' at this
  cases this with
  | idle => exact .inl rfl
  | fail => exact .inl rfl
  | short h => exact .inl rfl
  | @overflow src data c h hcc hq =>
    by_cases hp : p = src
    · subst hp
      exact .inr (.inl ⟨c, data, rfl, h, hcc, hq, rfl, assocGet_erase_self _ _⟩)
    · exact .inl (assocGet_erase_ne _ hp)
  | full h hcc hl => exact .inl rfl
  | crash _ _ _ _ => exact .inl rfl
  | @push src data b h hb hq hs hn =>
    by_cases hp : p = src
    · subst hp
      exact .inr (.inr ⟨data, b, rfl, h, rfl, assocGet_set_self _ _ _, rfl⟩)
    · exact .inl (assocGet_set_ne _ _ hp)

theorem connFor_of_some {d : UdpDisp} {p : SocketAddr} {c : UdpConn} (h : assocGet d.conn p = some c) : connFor d p = c := by
  unfold connFor; rw [h]; rfl

theorem connFor_of_none {d : UdpDisp} {p : SocketAddr} (h : assocGet d.conn p = none) :
    connFor d p = { rxQueue := [], peerAddr := p, accepted := false } := by
  unfold connFor; rw [h]; rfl

/-- **C29.** A session begins only with a peer whose connection waits to be accepted, or comes into being by a datagram of that
peer read in this very operation; afterwards the connection no longer waits. -/
theorem C29_accept_only_waiting {max : Nat} {s : UdpSrv} (hs : UdpReach max s) {op : UdpOp} {p : SocketAddr}
    (h : (udpStep s op).1 = .accepted p) :
    (Waiting s p ∨ (Unconnected s p ∧ (dgramOf p op).isSome)) ∧ (∃ w i, op = .accept w i) ∧
      (∃ c, assocGet (udpStep s op).2.disp.conn p = some c ∧ c.accepted = true) ∧
      (udpStep s op).2.sessions = s.sessions ++ [{ peer := p, closed := false }] := by
  have hd := hs.ok
  have hstep := udpStep_cases hd op
  generalize (udpStep s op).1 = out at hstep h
  generalize (udpStep s op).2 = s' at hstep
  subst h
  cases hstep with
  | skip _ h => rcases h with h | h <;> cases h
  | @acceptSome w i _ d' _ h =>
    cases h with
    | @some _ _ c hok hc ha hp hq _ _ _ _ =>
      refine ⟨?_, ⟨w, i, rfl⟩, ⟨_, hp, rfl⟩, rfl⟩
      rcases tryRecv_get (wakeAccept_ok hd w) i p with h1 | ⟨_, _, _, _, _, _, he, _⟩ | ⟨data, b, rfl, h56, _, hg, _⟩
      · rw [h1, (wakeAccept_same _ _).1] at hc
        exact .inl ⟨c, hc, ha⟩
      · rw [hok] at he; cases he
      · rw [hc] at hg
        cases hg0 : assocGet (wakeAccept s.disp w).conn p with
        | none =>
          right
          rw [(wakeAccept_same _ _).1] at hg0
          exact ⟨hg0, by rw [dgramOf_of_accept h56]; rfl⟩
        | some c0 =>
          left
          rw [connFor_of_some hg0] at hg
          cases hg
          rw [(wakeAccept_same _ _).1] at hg0
          exact ⟨c0, hg0, ha⟩

/-- The second host is accepted while it waits; the first at once. -/
example : UdpReach 8 (exState 4) ∧ (udpStep (exState 4) (.accept .changed .wouldBlock)).1 = .accepted exPeer2 ∧
    UdpReach 8 (exState 0) ∧ (udpStep (exState 0) (.accept .readable (.dgram exPeer (exData 1)))).1 = .accepted exPeer :=
  ⟨exHistory_reach 4, by decide +kernel, exHistory_reach 0, by decide +kernel⟩

/-- The peer has an accepted connection. -/
def AcceptedConn (s : UdpSrv) (p : SocketAddr) : Prop := ∃ c, assocGet s.disp.conn p = some c ∧ c.accepted = true

theorem accept_stays {max : Nat} {d d' : UdpDisp} {i : SockIn} {r : R (Option SocketAddr)} (hd : DispOk max d)
    (h : AcceptCase max d i r d') {p : SocketAddr} (hp : ∃ c, assocGet (d.tryRecv i).2.conn p = some c ∧ c.accepted = true) :
    (∃ c, assocGet d'.conn p = some c ∧ c.accepted = true) ∧ r ≠ .ok (some p) := by
  obtain ⟨c, hc, hacc⟩ := hp
  cases h with
  | panic _ => exact ⟨⟨c, hc, hacc⟩, by simp⟩
  | err _ => exact ⟨⟨c, hc, hacc⟩, by simp⟩
  | none _ _ he => exact ⟨⟨c, by rw [he, (recvNotify_conn _).1]; exact hc, hacc⟩, by simp⟩
  | @some _ q c' _ hc' ha' hp' hq' _ _ _ _ =>
    have hne : p ≠ q := by
      rintro rfl
      rw [hc] at hc'
      cases hc'
      rw [hacc] at ha'
      cases ha'
    exact ⟨⟨c, by rw [hq' p hne]; exact hc, hacc⟩, fun e => hne (by cases e; rfl)⟩

theorem tryRecv_stays {max : Nat} {d : UdpDisp} (hd : DispOk max d) (i : SockIn) {p : SocketAddr}
    (hp : ∃ c, assocGet d.conn p = some c ∧ c.accepted = true) :
    (assocGet (d.tryRecv i).2.conn p = none ∧ (d.tryRecv i).1 = .err) ∨ ∃ c, assocGet (d.tryRecv i).2.conn p = some c ∧ c.accepted = true := by
  obtain ⟨c, hc, hacc⟩ := hp
  rcases tryRecv_get hd i p with h1 | ⟨_, _, _, _, _, _, he, hn⟩ | ⟨data, b, rfl, h56, _, hg, _⟩
  · exact .inr ⟨c, h1 ▸ hc, hacc⟩
  · exact .inl ⟨hn, he⟩
  · rw [connFor_of_some hc] at hg
    exact .inr ⟨_, hg, hacc⟩

/-- An accepted connection is not accepted again and stays, or is gone. -/
theorem step_accepted {max : Nat} {s : UdpSrv} (hd : DispOk max s.disp) {op : UdpOp} (ho : OrderOk s op) {p : SocketAddr}
    (h : AcceptedConn s p) : (udpStep s op).1 ≠ .accepted p ∧ (AcceptedConn (udpStep s op).2 p ∨ Unconnected (udpStep s op).2 p) := by
  have hA : ∀ {w i r d'}, AcceptCase max (wakeAccept s.disp w) i r d' →
      r ≠ .ok (some p) ∧ ((∃ c, assocGet d'.conn p = some c ∧ c.accepted = true) ∨ assocGet d'.conn p = none) := by
    intro w i r d' hcase
    have h0 : ∃ c, assocGet (wakeAccept s.disp w).conn p = some c ∧ c.accepted = true := by
      rw [(wakeAccept_same _ _).1]; exact h
    rcases tryRecv_stays (wakeAccept_ok hd w) i h0 with ⟨hn, he⟩ | h1
    · cases hcase with
      | panic h => rw [h] at he; cases he
      | err _ => exact ⟨by simp, .inr hn⟩
      | none h _ _ => rw [h] at he; cases he
      | some h _ _ _ _ _ _ _ _ => rw [h] at he; cases he
    · have := accept_stays (wakeAccept_ok hd w) hcase h1
      exact ⟨this.2, .inl this.1⟩
  have hR : ∀ {w i q r d'}, RecvFromCase (wakeRecv s.disp w) q i r d' →
      ((∃ c, assocGet d'.conn p = some c ∧ c.accepted = true) ∨ assocGet d'.conn p = none) := by
    intro w i q r d' hcase
    have h0 : ∃ c, assocGet (wakeRecv s.disp w).conn p = some c ∧ c.accepted = true := by
      rw [(wakeRecv_same _ _).1]; exact h
    have hT := tryRecv_stays (wakeRecv_ok hd w) i h0
    have hT' : (∃ c, assocGet ((wakeRecv s.disp w).tryRecv i).2.conn p = some c ∧ c.accepted = true) ∨
        assocGet ((wakeRecv s.disp w).tryRecv i).2.conn p = none := hT.symm.imp_right (·.1)
    cases hcase with
    | panic _ => exact hT'
    | err _ => exact hT'
    | underflow _ _ _ _ => exact hT'
    | none _ _ he => rw [he, (recvNotify_conn _).1]; exact hT'
    | @some _ c b q' _ hc hq _ he =>
      rw [he, (recvNotify_conn _).1]
      simp only
      by_cases hp : p = q
      · subst hp
        rcases hT' with ⟨c', hc', ha'⟩ | hn
        · rw [hc] at hc'
          cases hc'
          exact .inl ⟨_, assocGet_set_self _ _ _, ha'⟩
        · rw [hc] at hn; cases hn
      · rw [assocGet_set_ne _ _ hp]; exact hT'
  have hC : ∀ {q r d'}, s.disp.disconnect q = (r, d') →
      ((∃ c, assocGet d'.conn p = some c ∧ c.accepted = true) ∨ assocGet d'.conn p = none) := by
    intro q r d' hx
    have he : ((∃ c, assocGet (assocErase s.disp.conn q) p = some c ∧ c.accepted = true) ∨ assocGet (assocErase s.disp.conn q) p = none) := by
      by_cases hp : p = q
      · subst hp; exact .inr (assocGet_erase_self _ _)
      · rw [assocGet_erase_ne _ hp]; exact .inl h
    rcases disconnect_cases s.disp q with ⟨_, hy⟩ | ⟨_, ⟨_, _, hy⟩ | ⟨_, hy⟩⟩
    · rw [hx] at hy; cases hy; exact .inl h
    · rw [hx] at hy; cases hy; exact he
    · rw [hx] at hy; cases hy; exact he
  have hstep := udpStep_cases hd op
  generalize (udpStep s op).1 = out at hstep
  generalize (udpStep s op).2 = s' at hstep
  cases hstep with
  | skip _ hout => exact ⟨by rcases hout with rfl | rfl <;> simp, .inl h⟩
  | @reorder l =>
    refine ⟨by simp, .inl ?_⟩
    unfold AcceptedConn
    simp only
    rw [assocGet_perm hd.nodup ho]
    exact h
  | acceptPanic hc => exact ⟨by simp, (hA hc).2⟩
  | acceptNone hc => exact ⟨by simp, (hA hc).2⟩
  | @acceptSome w i q d' _ hc => exact ⟨fun e => (hA hc).1 (by cases e; rfl), (hA hc).2⟩
  | recvPanic _ _ hc => exact ⟨by simp, hR hc⟩
  | recvNone _ _ hc => exact ⟨by simp, hR hc⟩
  | recvErr _ _ hc => exact ⟨by simp, hR hc⟩
  | recvSome _ _ _ hc => exact ⟨by simp, hR hc⟩
  | closePanic _ _ hc => exact ⟨by simp, hC hc⟩
  | closeOk _ _ hc => exact ⟨by simp, hC hc⟩

theorem run_accepted {max : Nat} {s : UdpSrv} (hd : DispOk max s.disp) {ops : List UdpOp} (ho : OrderLegal s ops) {p : SocketAddr}
    (h : AcceptedConn s p) (hstay : ∀ pre post, ops = pre ++ post → ¬ Unconnected (udpRun s pre).2 p) :
    AcceptedConn (udpRun s ops).2 p := by
  induction ops generalizing s with
  | nil => exact h
  | cons op ops ih =>
    rcases (step_accepted hd ho.1 h).2 with h1 | h1
    · refine ih (disp_step hd ho.1) ho.2 h1 ?_
      rintro pre post rfl
      exact hstay (op :: pre) post rfl
    · exact absurd h1 (hstay [op] ops rfl)

/-- **C29.** The same connection is never accepted twice: between two sessions with the same peer the peer was without a
connection. -/
theorem C29_never_twice {max : Nat} {s : UdpSrv} (hs : UdpReach max s) {op op' : UdpOp} {ops : List UdpOp} {p : SocketAddr}
    (ho : OrderLegal s (op :: (ops ++ [op']))) (h1 : (udpStep s op).1 = .accepted p)
    (h2 : (udpStep (udpRun (udpStep s op).2 ops).2 op').1 = .accepted p) :
    ∃ pre post, ops = pre ++ post ∧ Unconnected (udpRun (udpStep s op).2 pre).2 p := by
  refine Classical.byContradiction fun hno => ?_
  have hd1 := disp_step hs.ok ho.1
  have hacc : AcceptedConn (udpStep s op).2 p := (C29_accept_only_waiting hs h1).2.2.1
  have hsplit : ∀ (ops : List UdpOp) (s : UdpSrv), OrderLegal s (ops ++ [op']) → OrderLegal s ops ∧ OrderOk (udpRun s ops).2 op' := by
    intro ops
    induction ops with
    | nil => intro s h; exact ⟨trivial, h.1⟩
    | cons o ops ih => intro s h; exact ⟨⟨h.1, (ih _ h.2).1⟩, (ih _ h.2).2⟩
  have hl := hsplit ops _ ho.2
  have hrun := run_accepted hd1 hl.1 hacc (fun pre post he hu => hno ⟨pre, post, he, hu⟩)
  exact (step_accepted (disp_run hd1 hl.1) hl.2 hrun).1 h2

/-- A host that is accepted twice; in between its session ended. -/
example : UdpReach 8 (exState 0) ∧
    OrderLegal (exState 0) (.accept .readable (.dgram exPeer (exData 1)) :: ([.recv 0 .changed .wouldBlock, .close 0] ++
      [.accept .readable (.dgram exPeer (exData 4))])) ∧
    (udpStep (exState 0) (.accept .readable (.dgram exPeer (exData 1)))).1 = .accepted exPeer ∧
    (udpStep (udpRun (udpStep (exState 0) (.accept .readable (.dgram exPeer (exData 1)))).2
      [.recv 0 .changed .wouldBlock, .close 0]).2 (.accept .readable (.dgram exPeer (exData 4)))).1 = .accepted exPeer :=
  ⟨exHistory_reach 0, ⟨trivial, trivial, trivial, trivial, trivial⟩, by decide +kernel, by decide +kernel⟩

/-- **C29.** An accept round that does not reject a datagram and begins no session leaves nobody waiting. -/
theorem C29_none_waiting {max : Nat} {s : UdpSrv} (hs : UdpReach max s) (hc : s.crashed = false) (w : Wake) {i : SockIn}
    (hr : ¬ Rejected s i) (h : (udpStep s (.accept w i)).1 = .none) (p : SocketAddr) : ¬ Waiting (udpStep s (.accept w i)).2 p := by
  have hd := hs.ok
  have htake := tryRecv_taken (s := s) (wakeAccept_same _ _).1 (wakeAccept_same _ _).2.1 (wakeAccept_ok hd w) hr
  have hstep := udpStep_cases hd (.accept w i)
  generalize (udpStep s (.accept w i)).1 = out at hstep h
  generalize (udpStep s (.accept w i)).2 = s' at hstep
  subst h
  cases hstep with
  | skip hwhy _ =>
    rcases hwhy with h | ⟨_, ⟨_, _, h⟩ | h, _⟩
    · rw [hc] at h; cases h
    · cases h
    · cases h
  | @acceptNone _ _ d' h =>
    cases h with
    | err h => exact absurd h htake
    | none _ hall he =>
      rintro ⟨c, hc, ha⟩
      simp only [he, (recvNotify_conn _).1] at hc
      have := hall _ (assocGet_mem hc)
      rw [ha] at this
      cases this

/-- An accept round that takes a datagram for a running session and begins no session. -/
example : UdpReach 8 (exState 6) ∧ (exState 6).crashed = false ∧ ¬ Rejected (exState 6) (.dgram exPeer (exData 5)) ∧
    (udpStep (exState 6) (.accept .readable (.dgram exPeer (exData 5)))).1 = .none := by
  refine ⟨exHistory_reach 6, by decide +kernel, ?_, by decide +kernel⟩
  rintro (h | h | ⟨_, h⟩)
  · exact absurd h (by decide)
  · exact not_full (by decide +kernel) _ h
  · exact absurd h (by decide +kernel)

theorem dgramOf_inv {p : SocketAddr} {op : UdpOp} {b : Bytes} (h : dgramOf p op = some b) :
    ∃ data, sockOf op = some (.dgram p data) ∧ 56 ≤ data.length ∧ b = data.take 56 := by
  unfold dgramOf at h
  cases hs : sockOf op with
  | none => rw [hs] at h; cases h
  | some i =>
    rw [hs] at h
    cases i with
    | dgram q data =>
      simp only at h
      by_cases hh : q = p ∧ 56 ≤ data.length
      · rw [if_pos hh] at h
        cases h
        exact ⟨data, by rw [hh.1], hh.2, rfl⟩
      · rw [if_neg hh] at h; cases h
    | wouldBlock => cases h
    | fail => cases h

/-- A datagram of a new peer, with room for it. -/
theorem tryRecv_new {max : Nat} {s : UdpSrv} {d : UdpDisp} (hc : d.conn = s.disp.conn) (hd : DispOk max d)
    {p : SocketAddr} {data : Bytes} (h56 : 56 ≤ data.length) (hnew : Unconnected s p) (hroom : s.disp.conn.length < max)
    (hnp : (d.tryRecv (.dgram p data)).1 ≠ .panic) :
    (d.tryRecv (.dgram p data)).1 = .ok () ∧ (d.tryRecv (.dgram p data)).2.acceptSig = true ∧
      ∃ c, assocGet (d.tryRecv (.dgram p data)).2.conn p = some c ∧ c.accepted = false := by
  have hn : assocGet d.conn p = none := by rw [hc]; exact hnew
  have := tryRecv_cases hd (.dgram p data)
  generalize (d.tryRecv (.dgram p data)).1 = r at this hnp
  generalize (d.tryRecv (.dgram p data)).2 = d' at this
  cases this with
  | short h => omega
  | overflow _ hcc _ => rw [hn] at hcc; cases hcc
  | full _ _ hl => rw [hd.max_eq, hc] at hl; omega
  | crash _ _ _ _ => exact absurd rfl hnp
  | push _ _ _ _ _ =>
    refine ⟨rfl, ?_, _, assocGet_set_self _ _ _, ?_⟩
    · simp [pushed, connFor_of_none hn]
    · simp [connFor_of_none hn]

theorem new_peer_waits {max : Nat} {s : UdpSrv} (hd : DispOk max s.disp) (hc : s.crashed = false) {op : UdpOp} {p : SocketAddr} {b : Bytes}
    (hr : Reads s op) (hb : dgramOf p op = some b) (hnew : Unconnected s p) (hroom : s.disp.conn.length < max)
    (halive : (udpStep s op).2.crashed = false) :
    (udpStep s op).1 = .accepted p ∨ (Waiting (udpStep s op).2 p ∧ (udpStep s op).2.disp.acceptSig = true) := by
  obtain ⟨data, hsock, h56, _⟩ := dgramOf_inv hb
  have hstep := udpStep_cases hd op
  generalize (udpStep s op).1 = out at hstep
  generalize (udpStep s op).2 = s' at hstep halive
  cases hstep with
  | skip hwhy _ =>
    rcases hwhy with h | ⟨sid, ⟨w, i, rfl⟩ | rfl, h2⟩
    · rw [hc] at h; cases h
    · obtain ⟨q, hq⟩ := hr
      unfold OpenSession at hq
      rcases h2 with h2 | ⟨se, h2, h3⟩
      · rw [h2] at hq; cases hq
      · rw [h2] at hq; cases hq; cases h3
    · cases hsock
  | reorder => cases hsock
  | acceptPanic _ => cases halive
  | @acceptNone w i d' h =>
    cases hsock
    have hnew' := tryRecv_new (s := s) (wakeAccept_same _ _).1 (wakeAccept_ok hd w) h56 hnew hroom
    cases h with
    | err h => have := (hnew' (by rw [h]; simp)).1; rw [h] at this; cases this
    | none h hall he =>
      obtain ⟨_, _, c, hcc, ha⟩ := hnew' (by rw [h]; simp)
      have := hall _ (assocGet_mem hcc)
      rw [ha] at this
      cases this
  | @acceptSome w i q d' _ h =>
    cases hsock
    have hnew' := tryRecv_new (s := s) (wakeAccept_same _ _).1 (wakeAccept_ok hd w) h56 hnew hroom
    cases h with
    | some h _ _ _ hq _ _ _ hsig =>
      obtain ⟨_, hsg, c, hcc, ha⟩ := hnew' (by rw [h]; simp)
      by_cases hp : p = q
      · left; rw [hp]
      · right
        exact ⟨⟨c, by show assocGet d'.conn p = _; rw [hq p hp]; exact hcc, ha⟩, by show d'.acceptSig = _; rw [hsig]; exact hsg⟩
  | recvPanic _ _ _ => cases halive
  | @recvNone sid w i se d' _ _ h =>
    cases hsock
    have hnew' := tryRecv_new (s := s) (wakeRecv_same _ _).1 (wakeRecv_ok hd w) h56 hnew hroom
    cases h with
    | none h _ he =>
      obtain ⟨_, hsg, c, hcc, ha⟩ := hnew' (by rw [h]; simp)
      right
      exact ⟨⟨c, by show assocGet d'.conn p = _; rw [he, (recvNotify_conn _).1]; exact hcc, ha⟩,
        by show d'.acceptSig = _; rw [he, (recvNotify_conn _).2.2.2]; exact hsg⟩
  | @recvErr sid w i se d' _ _ h =>
    cases hsock
    have hnew' := tryRecv_new (s := s) (wakeRecv_same _ _).1 (wakeRecv_ok hd w) h56 hnew hroom
    cases h with
    | err h => have := (hnew' (by rw [h]; simp)).1; rw [h] at this; cases this
  | @recvSome sid w i se a d' _ _ _ h =>
    cases hsock
    have hnew' := tryRecv_new (s := s) (wakeRecv_same _ _).1 (wakeRecv_ok hd w) h56 hnew hroom
    cases h with
    | @some _ c' _ q h hc' hq _ he =>
      obtain ⟨_, hsg, c, hcc, ha⟩ := hnew' (by rw [h]; simp)
      right
      refine ⟨?_, by show d'.acceptSig = _; rw [he, (recvNotify_conn _).2.2.2]; exact hsg⟩
      unfold Waiting
      simp only [he, (recvNotify_conn _).1]
      by_cases hp : p = se.peer
      · subst hp
        rw [hcc] at hc'
        cases hc'
        exact ⟨_, assocGet_set_self _ _ _, ha⟩
      · exact ⟨c, by rw [assocGet_set_ne _ _ hp]; exact hcc, ha⟩
  | closePanic _ _ _ => cases hsock
  | closeOk _ _ _ => cases hsock

/-- **C29.** A datagram of a new peer makes a connection that is accepted at once or waits to be accepted, and then the
accepting task is notified. -/
theorem C29_new_peer_waits {max : Nat} {s : UdpSrv} (hs : UdpReach max s) (hc : s.crashed = false) {op : UdpOp} {p : SocketAddr} {b : Bytes}
    (hr : Reads s op) (hb : dgramOf p op = some b) (hnew : Unconnected s p) (hroom : s.disp.conn.length < max)
    (halive : (udpStep s op).2.crashed = false) :
    (udpStep s op).1 = .accepted p ∨ (Waiting (udpStep s op).2 p ∧ (udpStep s op).2.disp.acceptSig = true) :=
  new_peer_waits hs.ok hc hr hb hnew hroom halive

/-- The first datagram of the second host is read in a round of the first host's session. -/
example : UdpReach 8 (exState 1) ∧ (exState 1).crashed = false ∧ Reads (exState 1) (.recv 0 .readable (.dgram exPeer2 (exData 2))) ∧
    dgramOf exPeer2 (.recv 0 .readable (.dgram exPeer2 (exData 2))) = some (exData 2) ∧ Unconnected (exState 1) exPeer2 ∧
    (exState 1).disp.conn.length < 8 ∧ (udpStep (exState 1) (.recv 0 .readable (.dgram exPeer2 (exData 2)))).2.crashed = false :=
  ⟨exHistory_reach 1, by decide +kernel, ⟨exPeer, by unfold OpenSession; decide +kernel⟩, by decide +kernel,
    by unfold Unconnected; decide +kernel, by decide +kernel, by decide +kernel⟩

end Letmein.Props
