import Verif.Lemmas.Udp

/-!
# Properties C27 to C32: the UDP server
-/

namespace Letmein.Props

open Letmein Spec

/-! ## Preservation of well-formedness -/

theorem disp_accept {max : Nat} {d d' : UdpDisp} {i : SockIn} {r : R (Option SocketAddr)} (hd : DispOk max d)
    (h : AcceptCase max d i r d') : DispOk max d' := by
  have ht := tryRecv_ok hd i
  cases h with
  | panic _ => exact ht
  | err _ => exact ht
  | none _ _ he => rw [he]; exact ht.congr (recvNotify_conn _).1 (recvNotify_conn _).2.1
  | some _ _ _ _ _ hd' _ _ _ => exact hd'

theorem disp_recv {max : Nat} {d d' : UdpDisp} {p : SocketAddr} {i : SockIn} {r : R (Option (Arr MSG_SIZE))} (hd : DispOk max d)
    (h : RecvFromCase d p i r d') : DispOk max d' := by
  have ht := tryRecv_ok hd i
  cases h with
  | panic _ => exact ht
  | err _ => exact ht
  | none _ _ he => rw [he]; exact ht.congr (recvNotify_conn _).1 (recvNotify_conn _).2.1
  | underflow _ _ _ _ => exact ht
  | some _ hc hq _ he =>
    rw [he]
    exact (ht.popped hc hq _).congr (recvNotify_conn _).1 (recvNotify_conn _).2.1

theorem wakeAccept_ok {max : Nat} {d : UdpDisp} (hd : DispOk max d) (w : Wake) : DispOk max (wakeAccept d w) :=
  hd.congr (wakeAccept_same _ _).1 (wakeAccept_same _ _).2.1

theorem wakeRecv_ok {max : Nat} {d : UdpDisp} (hd : DispOk max d) (w : Wake) : DispOk max (wakeRecv d w) :=
  hd.congr (wakeRecv_same _ _).1 (wakeRecv_same _ _).2.1

theorem disp_close {max : Nat} {d d' : UdpDisp} {p : SocketAddr} {r : R Unit} (hd : DispOk max d)
    (h : d.disconnect p = (r, d')) : DispOk max d' := by
  rcases disconnect_cases d p with ⟨_, hx⟩ | ⟨_, ⟨_, _, hx⟩ | ⟨_, hx⟩⟩
  · rw [hx] at h; cases h; exact hd
  · rw [hx] at h; cases h; exact hd.erase p _
  · rw [hx] at h; cases h; exact hd.erase p _

theorem disp_step {max : Nat} {s : UdpSrv} (hd : DispOk max s.disp) {op : UdpOp} (ho : OrderOk s op) :
    DispOk max (udpStep s op).2.disp := by
  have := udpStep_cases hd op
  generalize (udpStep s op).1 = out at this
  generalize (udpStep s op).2 = s' at this
  cases this with
  | skip _ _ => exact hd
  | reorder => exact hd.reorder ho
  | acceptPanic h => exact disp_accept (wakeAccept_ok hd _) h
  | acceptNone h => exact disp_accept (wakeAccept_ok hd _) h
  | acceptSome _ h => exact disp_accept (wakeAccept_ok hd _) h
  | recvPanic _ _ h => exact disp_recv (wakeRecv_ok hd _) h
  | recvNone _ _ h => exact disp_recv (wakeRecv_ok hd _) h
  | recvErr _ _ h => exact disp_recv (wakeRecv_ok hd _) h
  | recvSome _ _ _ h => exact disp_recv (wakeRecv_ok hd _) h
  | closePanic _ _ h => exact disp_close hd h
  | closeOk _ _ h => exact disp_close hd h

theorem disp_run {max : Nat} {s : UdpSrv} (hd : DispOk max s.disp) {ops : List UdpOp} (ho : OrderLegal s ops) :
    DispOk max (udpRun s ops).2.disp := by
  induction ops generalizing s with
  | nil => exact hd
  | cons op ops ih => exact ih (disp_step hd ho.1) ho.2

/-- A state some history leads to. -/
def UdpReach (max : Nat) (s : UdpSrv) : Prop := ∃ ops, OrderLegal (UdpSrv.new max) ops ∧ s = (udpRun (UdpSrv.new max) ops).2

theorem UdpReach.ok {max : Nat} {s : UdpSrv} (h : UdpReach max s) : DispOk max s.disp := by
  obtain ⟨ops, h1, rfl⟩ := h
  exact disp_run (DispOk.new max) h1

/-! ## C27 -/

/-- A host on the internet. -/
def exPeer : SocketAddr := ⟨.v4 ⟨[203, 0, 113, 7], rfl⟩, 40000⟩
/-- Another one. -/
def exPeer2 : SocketAddr := ⟨.v4 ⟨[198, 51, 100, 9], rfl⟩, 1234⟩
/-- A third one. -/
def exPeer3 : SocketAddr := ⟨.v4 ⟨[198, 51, 100, 10], rfl⟩, 1235⟩
/-- A datagram of 56 bytes. -/
def exData (b : UInt8) : Bytes := List.replicate 56 b

/-- The first host is accepted; its session reads the datagram of another host and receives its own; then its second datagram; the map is
rehashed; the second host is accepted, woken by the notification, and receives; the first session ends. -/
def exHistory : List UdpOp :=
  [.accept .readable (.dgram exPeer (exData 1)),
   .recv 0 .readable (.dgram exPeer2 (exData 2)),
   .recv 0 .readable (.dgram exPeer (exData 3)),
   .reorder [(exPeer2, { rxQueue := [⟨exData 2, rfl⟩], peerAddr := exPeer2, accepted := false }),
     (exPeer, { rxQueue := [], peerAddr := exPeer, accepted := true })],
   .accept .changed .wouldBlock,
   .recv 1 .changed .wouldBlock,
   .close 0]

theorem exHistory_legal : OrderLegal (UdpSrv.new 8) exHistory := by
  refine ⟨trivial, trivial, trivial, ?_, trivial, trivial, trivial, trivial⟩
  show List.Perm _ _
  rw [← List.isPerm_iff]
  decide +kernel

/-- **C27.** Whatever datagrams arrive and whatever the server does, it holds at most `max` connections, each peer has at most
one, and each holds at most four datagrams. -/
theorem C27_bounded_memory (max : Nat) (ops : List UdpOp) (hl : OrderLegal (UdpSrv.new max) ops) :
    let conn := (udpRun (UdpSrv.new max) ops).2.disp.conn
    conn.length ≤ max ∧ (conn.map (·.1)).Nodup ∧ (∀ e ∈ conn, e.2.rxQueue.length ≤ 4) ∧
      (conn.map (fun e => e.2.rxQueue.length)).sum ≤ 4 * max := by
  have h := disp_run (DispOk.new max) hl
  refine ⟨h.size, h.nodup, fun e he => (h.entry e he).2, ?_⟩
  have h1 := total_le (fun e he => (h.entry e he).2)
  have h2 := h.size
  have h3 := Nat.mul_le_mul_right 4 h2
  unfold total at h1
  omega

/-- After the first four operations of the history, two connections and one waiting datagram. -/
example : OrderLegal (UdpSrv.new 8) exHistory ∧ (udpRun (UdpSrv.new 8) (exHistory.take 4)).2.disp.conn.map (fun e => e.2.rxQueue.length) = [1, 0] :=
  ⟨exHistory_legal, by decide +kernel⟩

/-! ## C28 -/

/-- The datagram of peer `p` that the socket returns. -/
def sockArr (p : SocketAddr) : SockIn → List Bytes
  | .dgram q data => if q = p ∧ 56 ≤ data.length then [data.take 56] else []
  | _ => []

theorem queueOf_congr {d d' : UdpDisp} (h : d'.conn = d.conn) (p : SocketAddr) : queueOf d' p = queueOf d p := by
  unfold queueOf; rw [h]

theorem queueOf_set_self (d : UdpDisp) (p : SocketAddr) (c : UdpConn) (nr : Nat) (a r : Bool) :
    queueOf { conn := assocSet d.conn p c, maxConn := d.maxConn, nrQueued := nr, acceptSig := a, recvSig := r } p = c.rxQueue.map (·.val) := by
  unfold queueOf
  rw [assocGet_set_self]

theorem queueOf_set_ne (d : UdpDisp) {p q : SocketAddr} (h : q ≠ p) (c : UdpConn) (nr : Nat) (a r : Bool) :
    queueOf { conn := assocSet d.conn p c, maxConn := d.maxConn, nrQueued := nr, acceptSig := a, recvSig := r } q = queueOf d q := by
  unfold queueOf
  rw [assocGet_set_ne _ _ h]

theorem connFor_queue (d : UdpDisp) (p : SocketAddr) : (connFor d p).rxQueue.map (·.val) = queueOf d p := by
  unfold connFor queueOf
  cases assocGet d.conn p <;> simp

theorem pushed_queue (d : UdpDisp) (src : SocketAddr) (b : Arr MSG_SIZE) (p : SocketAddr) :
    queueOf (pushed d src b) p = queueOf d p ++ (if src = p then [b.val] else []) := by
  by_cases h : src = p
  · subst h
    rw [if_pos rfl, ← connFor_queue d]
    unfold pushed
    rw [queueOf_set_self]
    simp
  · rw [if_neg h, List.append_nil]
    unfold pushed
    exact queueOf_set_ne d (fun e => h e.symm) _ _ _ _

theorem tryRecv_queue {max : Nat} {d : UdpDisp} (hd : DispOk max d) (i : SockIn) (p : SocketAddr) :
    (queueOf (d.tryRecv i).2 p).Sublist (queueOf d p ++ sockArr p i) := by
  have := tryRecv_cases hd i
  generalize (d.tryRecv i).1 = r at this
  generalize (d.tryRecv i).2 = d' at this
  cases this with
  | idle => simp [sockArr]
  | fail => simp [sockArr]
  | short h => exact List.sublist_append_left _ _
  | @overflow src data c h hc hq =>
    refine List.Sublist.trans ?_ (List.sublist_append_left _ _)
    by_cases hp : p = src
    · subst hp
      unfold queueOf
      rw [assocGet_erase_self]
      exact List.nil_sublist _
    · unfold queueOf
      rw [assocGet_erase_ne _ hp]
      exact List.Sublist.refl _
  | full _ _ _ => exact List.sublist_append_left _ _
  | crash _ _ _ _ => exact List.sublist_append_left _ _
  | @push src data b h hb hq hs hn =>
    rw [pushed_queue]
    refine List.Sublist.append_left ?_ _
    by_cases hp : src = p
    · rw [if_pos hp, sockArr, if_pos ⟨hp, h⟩, hb]
      exact List.Sublist.refl _
    · rw [if_neg hp]; exact List.nil_sublist _

theorem dgramOf_accept (p : SocketAddr) (w : Wake) (i : SockIn) : (dgramOf p (.accept w i)).toList = sockArr p i := by
  cases i with
  | dgram q data =>
    simp only [dgramOf, sockOf, sockArr]
    split <;> rfl
  | wouldBlock => rfl
  | fail => rfl

theorem dgramOf_recv (p : SocketAddr) (sid : Nat) (w : Wake) (i : SockIn) : (dgramOf p (.recv sid w i)).toList = sockArr p i := by
  cases i with
  | dgram q data =>
    simp only [dgramOf, sockOf, sockArr]
    split <;> rfl
  | wouldBlock => rfl
  | fail => rfl

theorem accept_queue {max : Nat} {d d' : UdpDisp} {i : SockIn} {r : R (Option SocketAddr)} (h : AcceptCase max d i r d')
    (p : SocketAddr) : queueOf d' p = queueOf (d.tryRecv i).2 p := by
  cases h with
  | panic _ => rfl
  | err _ => rfl
  | none _ _ he => rw [he]; exact queueOf_congr (recvNotify_conn _).1 p
  | @some _ q c _ hc _ hp hq _ _ _ _ =>
    unfold queueOf
    by_cases h : p = q
    · subst h; rw [hp, hc]
    · rw [hq p h]

theorem disconnect_queue {d d' : UdpDisp} {q : SocketAddr} {r : R Unit} (h : d.disconnect q = (r, d')) (p : SocketAddr) :
    (queueOf d' p).Sublist (queueOf d p) := by
  have he : ∀ nr, (queueOf { d with nrQueued := nr, conn := assocErase d.conn q } p).Sublist (queueOf d p) := by
    intro nr
    unfold queueOf
    by_cases hp : p = q
    · subst hp; simp only [assocGet_erase_self]; exact List.nil_sublist _
    · simp only [assocGet_erase_ne _ hp]; exact List.Sublist.refl _
  rcases disconnect_cases d q with ⟨_, hx⟩ | ⟨_, ⟨_, _, hx⟩ | ⟨_, hx⟩⟩
  · rw [hx] at h; cases h; exact List.Sublist.refl _
  · rw [hx] at h; cases h; exact he _
  · rw [hx] at h; cases h; exact he _

/-- One operation moves datagrams from the socket to the queue and from the queue to the session, and may drop some. -/
theorem step_flow {max : Nat} {s : UdpSrv} (hd : DispOk max s.disp) {op : UdpOp} (ho : OrderOk s op) (peers : List SocketAddr)
    (hp : (s.sessions.map (·.peer)) <+: peers) (p : SocketAddr) :
    ((deliveryOf peers p (op, (udpStep s op).1)).toList ++ queueOf (udpStep s op).2.disp p).Sublist
      (queueOf s.disp p ++ (dgramOf p op).toList) := by
  have hpeer : ∀ {sid : Nat} {se : UdpSession}, s.sessions[sid]? = some se → peers[sid]? = some se.peer := by
    intro sid se h
    obtain ⟨t, rfl⟩ := hp
    have : (s.sessions.map (·.peer))[sid]? = some se.peer := by rw [List.getElem?_map, h]; rfl
    rw [List.getElem?_append_left, this]
    exact (List.getElem?_eq_some_iff.1 this).1
  have hA : ∀ {w i r d'}, AcceptCase max (wakeAccept s.disp w) i r d' →
      (queueOf d' p).Sublist (queueOf s.disp p ++ sockArr p i) := by
    intro w i r d' h
    rw [accept_queue h]
    have := tryRecv_queue (wakeAccept_ok hd w) i p
    rwa [queueOf_congr (wakeAccept_same _ _).1] at this
  have hR : ∀ w i, (queueOf ((wakeRecv s.disp w).tryRecv i).2 p).Sublist (queueOf s.disp p ++ sockArr p i) := by
    intro w i
    have := tryRecv_queue (wakeRecv_ok hd w) i p
    rwa [queueOf_congr (wakeRecv_same _ _).1] at this
  have := udpStep_cases hd op
  generalize (udpStep s op).1 = out at this
  generalize (udpStep s op).2 = s' at this
  cases this with
  | skip _ h =>
    have : deliveryOf peers p (op, out) = none := by rcases h with rfl | rfl <;> cases op <;> rfl
    rw [this]
    exact List.sublist_append_left _ _
  | @reorder l =>
    have : queueOf { s.disp with conn := l } p = queueOf s.disp p := by
      unfold queueOf
      simp only
      rw [assocGet_perm hd.nodup ho]
    show List.Sublist ([] ++ queueOf { s.disp with conn := l } p) _
    rw [List.nil_append, this]
    exact List.sublist_append_left _ _
  | acceptPanic h => rw [dgramOf_accept]; exact hA h
  | acceptNone h => rw [dgramOf_accept]; exact hA h
  | acceptSome _ h => rw [dgramOf_accept]; exact hA h
  | @recvPanic sid w i se d' hs ho h =>
    rw [dgramOf_recv]
    cases h with
    | panic _ => exact hR w i
    | underflow _ _ _ _ => exact hR w i
  | @recvNone sid w i se d' hs ho h =>
    rw [dgramOf_recv]
    cases h with
    | none _ _ he =>
      have := hR w i
      rw [← queueOf_congr (recvNotify_conn _).1, ← he] at this
      exact this
  | @recvErr sid w i se d' hs ho h =>
    rw [dgramOf_recv]
    cases h with
    | err _ => exact hR w i
  | @recvSome sid w i se b d' _ hs ho h =>
    rw [dgramOf_recv]
    cases h with
    | @some _ c _ q _ hc hq _ he =>
      have hd1 : queueOf d' p = if p = se.peer then q.map (·.val) else queueOf ((wakeRecv s.disp w).tryRecv i).2 p := by
        rw [he, queueOf_congr (recvNotify_conn _).1]
        by_cases h : p = se.peer
        · rw [if_pos h, h]; exact queueOf_set_self _ _ _ _ _ _
        · rw [if_neg h]; exact queueOf_set_ne _ h _ _ _ _
      refine List.Sublist.trans ?_ (hR w i)
      show List.Sublist (_ ++ queueOf d' p) _
      rw [hd1]
      simp only [deliveryOf, hpeer hs, Option.some.injEq]
      by_cases h : p = se.peer
      · subst h
        rw [if_pos rfl, if_pos rfl]
        unfold queueOf
        rw [hc]
        simp only [hq]
        exact List.Sublist.refl _
      · rw [if_neg h, if_neg (fun e => h e.symm)]
        exact List.Sublist.refl _
  | closePanic _ _ h => exact List.Sublist.trans (disconnect_queue h p) (List.sublist_append_left _ _)
  | closeOk _ _ h => exact List.Sublist.trans (disconnect_queue h p) (List.sublist_append_left _ _)

theorem step_peers {max : Nat} {s : UdpSrv} (hd : DispOk max s.disp) (op : UdpOp) :
    (udpStep s op).2.sessions.map (·.peer) = s.sessions.map (·.peer) ++ (acceptOf (op, (udpStep s op).1)).toList := by
  have hset : ∀ {sid : Nat} {se : UdpSession}, s.sessions[sid]? = some se →
      (s.sessions.set sid { se with closed := true }).map (·.peer) = s.sessions.map (·.peer) := by
    intro sid se h
    rw [List.map_set]
    show (s.sessions.map (·.peer)).set sid se.peer = _
    apply List.ext_getElem?
    intro j
    rw [List.getElem?_set]
    by_cases hj : sid = j
    · subst hj
      rw [if_pos rfl, List.getElem?_map, h]
      have := (List.getElem?_eq_some_iff.1 h).1
      simp [this]
    · rw [if_neg hj]
  have := udpStep_cases hd op
  generalize (udpStep s op).1 = out at this
  generalize (udpStep s op).2 = s' at this
  cases this with
  | skip _ h => rcases h with rfl | rfl <;> simp [acceptOf]
  | acceptSome _ _ => simp [acceptOf]
  | closePanic hs _ _ => simpa [acceptOf] using hset hs
  | closeOk hs _ _ => simpa [acceptOf] using hset hs
  | _ => simp [acceptOf]

theorem run_peers {max : Nat} {s : UdpSrv} (hd : DispOk max s.disp) {ops : List UdpOp} (ho : OrderLegal s ops) :
    (udpRun s ops).2.sessions.map (·.peer) = s.sessions.map (·.peer) ++ accepts (udpRun s ops).1 := by
  induction ops generalizing s with
  | nil => simp [udpRun, accepts]
  | cons op ops ih =>
    rw [udpRun]
    simp only
    rw [ih (disp_step hd ho.1) ho.2, step_peers hd op]
    unfold accepts
    rw [List.filterMap_cons]
    cases acceptOf (op, (udpStep s op).1) <;> simp

theorem run_flow {max : Nat} {s : UdpSrv} (hd : DispOk max s.disp) {ops : List UdpOp} (ho : OrderLegal s ops)
    (peers : List SocketAddr) (hp : (udpRun s ops).2.sessions.map (·.peer) <+: peers) (p : SocketAddr) :
    ((udpRun s ops).1.filterMap (deliveryOf peers p) ++ queueOf (udpRun s ops).2.disp p).Sublist
      (queueOf s.disp p ++ arrivals p (udpRun s ops).1) := by
  induction ops generalizing s with
  | nil => simp [udpRun, arrivals]
  | cons op ops ih =>
    have hd1 := disp_step hd ho.1
    have h1 := ih hd1 ho.2 hp
    have hpre : s.sessions.map (·.peer) <+: peers := by
      have h2 := run_peers hd (ops := op :: ops) ho
      refine List.IsPrefix.trans ?_ hp
      exact ⟨_, h2.symm⟩
    have h2 := step_flow hd ho.1 peers hpre p
    rw [udpRun]
    simp only
    have e1 : ((op, (udpStep s op).1) :: (udpRun (udpStep s op).2 ops).1).filterMap (deliveryOf peers p) =
        (deliveryOf peers p (op, (udpStep s op).1)).toList ++ (udpRun (udpStep s op).2 ops).1.filterMap (deliveryOf peers p) := by
      rw [List.filterMap_cons]
      cases deliveryOf peers p (op, (udpStep s op).1) <;> rfl
    have e2 : arrivals p ((op, (udpStep s op).1) :: (udpRun (udpStep s op).2 ops).1) =
        (dgramOf p op).toList ++ arrivals p (udpRun (udpStep s op).2 ops).1 := by
      unfold arrivals
      rw [List.filterMap_cons]
      cases dgramOf p op <;> rfl
    rw [e1, e2, List.append_assoc, ← List.append_assoc (queueOf s.disp p)]
    refine List.Sublist.trans (h1.append_left _) ?_
    rw [← List.append_assoc]
    exact h2.append_right _

/-- **C28.** Everything the sessions of a peer receive is, in order, a subsequence of that peer's datagrams (cut to 56 bytes):
nothing is duplicated, reordered, invented or taken from another peer. -/
theorem C28_own_datagrams_only (max : Nat) (ops : List UdpOp) (hl : OrderLegal (UdpSrv.new max) ops) (p : SocketAddr) :
    (deliveries p (udpRun (UdpSrv.new max) ops).1).Sublist (arrivals p (udpRun (UdpSrv.new max) ops).1) := by
  have hd := DispOk.new max
  have h := run_flow (s := UdpSrv.new max) hd hl _ (List.prefix_refl _) p
  rw [run_peers (s := UdpSrv.new max) hd hl] at h
  exact List.Sublist.trans (List.sublist_append_left _ _) h

/-- Both hosts' messages are delivered to their sessions. -/
example : deliveries exPeer (udpRun (UdpSrv.new 8) exHistory).1 = [exData 1, exData 3] ∧
    deliveries exPeer2 (udpRun (UdpSrv.new 8) exHistory).1 = [exData 2] := by decide +kernel

theorem filterMap_sublist {α β : Type} {f g : α → Option β} (h : ∀ a, f a = none ∨ f a = g a) (l : List α) :
    (l.filterMap f).Sublist (l.filterMap g) := by
  induction l with
  | nil => exact List.Sublist.refl _
  | cons a l ih =>
    rw [List.filterMap_cons, List.filterMap_cons]
    rcases h a with h | h
    · rw [h]
      cases g a with
      | none => exact ih
      | some b => exact ih.cons b
    · rw [h]
      cases g a with
      | none => exact ih
      | some b => exact ih.cons₂ b

/-- **C28**, for one session: what session number `sid` receives is a subsequence of what its peer sent. -/
theorem C28_session (max : Nat) (ops : List UdpOp) (hl : OrderLegal (UdpSrv.new max) ops) (p : SocketAddr) (sid : Nat)
    (hs : (accepts (udpRun (UdpSrv.new max) ops).1)[sid]? = some p) :
    (deliveriesTo sid (udpRun (UdpSrv.new max) ops).1).Sublist (arrivals p (udpRun (UdpSrv.new max) ops).1) := by
  refine List.Sublist.trans ?_ (C28_own_datagrams_only max ops hl p)
  refine filterMap_sublist ?_ _
  rintro ⟨op, out⟩
  cases op with
  | recv sid' w i =>
    cases out with
    | got b =>
      simp only [deliveryOf]
      by_cases h : sid' = sid
      · subst h; right; rw [if_pos rfl, if_pos hs]
      · left; rw [if_neg h]
    | _ => left; rfl
  | _ => left; rfl

/-- The second session is that of the second host. -/
example : (accepts (udpRun (UdpSrv.new 8) exHistory).1)[1]? = some exPeer2 ∧
    deliveriesTo 1 (udpRun (UdpSrv.new 8) exHistory).1 = [exData 2] := by decide +kernel

/-- Only begun sessions receive anything. -/
theorem C28_only_sessions (max : Nat) (ops : List UdpOp) (hl : OrderLegal (UdpSrv.new max) ops) (sid : Nat)
    (hs : (accepts (udpRun (UdpSrv.new max) ops).1)[sid]? = none) :
    deliveriesTo sid (udpRun (UdpSrv.new max) ops).1 = [] := by
  have key : ∀ (ops : List UdpOp) (s : UdpSrv), DispOk max s.disp → OrderLegal s ops →
      ((udpRun s ops).2.sessions.map (·.peer))[sid]? = none → deliveriesTo sid (udpRun s ops).1 = [] := by
    intro ops
    induction ops with
    | nil => intros; rfl
    | cons op ops ih =>
      intro s hd hl hs
      have h1 := ih _ (disp_step hd hl.1) hl.2 hs
      rw [udpRun]
      simp only
      unfold deliveriesTo at h1 ⊢
      rw [List.filterMap_cons, h1]
      have hnone : s.sessions[sid]? = none := by
        rw [run_peers hd (ops := op :: ops) hl, List.getElem?_eq_none_iff, List.length_append, List.length_map] at hs
        rw [List.getElem?_eq_none_iff]
        omega
      have := udpStep_cases hd op
      generalize (udpStep s op).1 = out at this
      generalize (udpStep s op).2 = s' at this
      cases this with
      | skip _ h => rcases h with rfl | rfl <;> cases op <;> rfl
      | @recvSome sid' w i se b d' _ hs' _ _ =>
        have : sid' ≠ sid := by
          intro h; subst h; rw [hnone] at hs'; cases hs'
        simp only [if_neg this]
      | _ => rfl
  refine key ops (UdpSrv.new max) (DispOk.new max) hl ?_
  rw [run_peers (s := UdpSrv.new max) (DispOk.new max) hl]
  exact hs

/-- There is no third session. -/
example : (accepts (udpRun (UdpSrv.new 8) exHistory).1)[2]? = none := by decide +kernel

end Letmein.Props
