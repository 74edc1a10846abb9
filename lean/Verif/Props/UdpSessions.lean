import Verif.Props.UdpFaults

/-!
# Properties C29 (persistence), C50, C51, C52: connections and sessions of the UDP server
-/

namespace Letmein.Props

open Letmein Spec

/-- Has the peer a connection, and is it accepted? -/
def flag (d : UdpDisp) (p : SocketAddr) : Option Bool := (assocGet d.conn p).map (·.accepted)

theorem flag_congr {d d' : UdpDisp} (h : d'.conn = d.conn) (p : SocketAddr) : flag d' p = flag d p := by
  unfold flag; rw [h]

theorem flag_waiting {s : UdpSrv} {p : SocketAddr} : Waiting s p ↔ flag s.disp p = some false := by
  unfold Waiting flag
  cases assocGet s.disp.conn p <;> simp

theorem flag_accepted {s : UdpSrv} {p : SocketAddr} : AcceptedConn s p ↔ flag s.disp p = some true := by
  unfold AcceptedConn flag
  cases assocGet s.disp.conn p <;> simp

theorem flag_unconnected {s : UdpSrv} {p : SocketAddr} : Unconnected s p ↔ flag s.disp p = none := by
  unfold Unconnected flag
  cases assocGet s.disp.conn p <;> simp

theorem tryRecv_flag {max : Nat} {s : UdpSrv} {d : UdpDisp} (hc : d.conn = s.disp.conn) (hd : DispOk max d) (i : SockIn) (p : SocketAddr) :
    (flag (d.tryRecv i).2 p = flag d p) ∨
    (flag (d.tryRecv i).2 p = none ∧ (d.tryRecv i).1 = .err ∧ ∃ data, i = .dgram p data ∧ 56 ≤ data.length ∧ QueueFull s p) ∨
    (flag d p = none ∧ flag (d.tryRecv i).2 p = some false ∧ (d.tryRecv i).1 = .ok () ∧ (d.tryRecv i).2.acceptSig = true) := by
  rcases tryRecv_get hd i p with h | ⟨c, data, h1, h2, h3, h4, h5, h6⟩ | ⟨data, b, h1, h2, h3, h4, h5⟩
  · left; unfold flag; rw [h]
  · right; left
    exact ⟨by unfold flag; rw [h6]; rfl, h5, data, h1, h2, queueFull_of_get hc h3 h4⟩
  · cases hg : assocGet d.conn p with
    | none =>
      right; right
      rw [connFor_of_none hg] at h4 h5
      exact ⟨by unfold flag; rw [hg]; rfl, by unfold flag; rw [h4]; rfl, h3, by rw [h5]; simp⟩
    | some c =>
      left
      rw [connFor_of_some hg] at h4
      unfold flag; rw [h4, hg]; rfl

/-- The accept signal is only ever switched on by receiving. -/
theorem tryRecv_sig {max : Nat} {d : UdpDisp} (hd : DispOk max d) (i : SockIn) (h : d.acceptSig = true) : (d.tryRecv i).2.acceptSig = true := by
  have := tryRecv_cases hd i
  generalize (d.tryRecv i).1 = r at this
  generalize (d.tryRecv i).2 = d' at this
  cases this with
  | push _ _ _ _ _ => simp [pushed, h]
  | _ => exact h

theorem accept_flag {max : Nat} {d d' : UdpDisp} {i : SockIn} {r : R (Option SocketAddr)} (h : AcceptCase max d i r d') :
    (∃ q, r = .ok (some q) ∧ flag (d.tryRecv i).2 q = some false ∧ flag d' q = some true ∧
      ∀ p, p ≠ q → flag d' p = flag (d.tryRecv i).2 p) ∨
    ((∀ q, r ≠ .ok (some q)) ∧ ∀ p, flag d' p = flag (d.tryRecv i).2 p) := by
  cases h with
  | panic _ => exact .inr ⟨by simp, fun _ => rfl⟩
  | err _ => exact .inr ⟨by simp, fun _ => rfl⟩
  | none _ _ he => exact .inr ⟨by simp, fun p => by rw [he]; exact flag_congr (recvNotify_conn _).1 p⟩
  | @some _ q c _ hc ha hp hq _ _ _ _ =>
    left
    refine ⟨q, rfl, ?_, ?_, ?_⟩
    · unfold flag; rw [hc]; simp [ha]
    · unfold flag; rw [hp]; rfl
    · intro p hne; unfold flag; rw [hq p hne]

theorem accept_sig {max : Nat} {d d' : UdpDisp} {i : SockIn} {r : R (Option SocketAddr)} (h : AcceptCase max d i r d') :
    d'.acceptSig = (d.tryRecv i).2.acceptSig := by
  cases h with
  | panic _ => rfl
  | err _ => rfl
  | none _ _ he => rw [he, (recvNotify_conn _).2.2.2]
  | some _ _ _ _ _ _ _ _ hs => exact hs

theorem recv_flag {d d' : UdpDisp} {q : SocketAddr} {i : SockIn} {r : R (Option (Arr MSG_SIZE))} (h : RecvFromCase d q i r d') :
    (∀ p, flag d' p = flag (d.tryRecv i).2 p) ∧ d'.acceptSig = (d.tryRecv i).2.acceptSig := by
  cases h with
  | panic _ => exact ⟨fun _ => rfl, rfl⟩
  | err _ => exact ⟨fun _ => rfl, rfl⟩
  | underflow _ _ _ _ => exact ⟨fun _ => rfl, rfl⟩
  | none _ _ he => exact ⟨fun p => by rw [he]; exact flag_congr (recvNotify_conn _).1 p, by rw [he, (recvNotify_conn _).2.2.2]⟩
  | @some _ c b q' _ hc hq _ he =>
    refine ⟨fun p => ?_, by rw [he, (recvNotify_conn _).2.2.2]⟩
    rw [he, flag_congr (recvNotify_conn _).1]
    unfold flag
    by_cases hp : p = q
    · subst hp; simp only [assocGet_set_self, hc]; rfl
    · simp only [assocGet_set_ne _ _ hp]

theorem disconnect_flag {d d' : UdpDisp} {q : SocketAddr} (h : d.disconnect q = (.ok (), d')) :
    flag d' q = none ∧ (∀ p, p ≠ q → flag d' p = flag d p) ∧ d'.acceptSig = d.acceptSig := by
  rcases disconnect_cases d q with ⟨_, hx⟩ | ⟨_, ⟨_, _, hx⟩ | ⟨_, hx⟩⟩
  · rw [hx] at h; cases h
  · rw [hx] at h; cases h
  · rw [hx] at h; cases h
    refine ⟨?_, fun p hp => ?_, rfl⟩
    · unfold flag; simp only [assocGet_erase_self]; rfl
    · unfold flag; simp only [assocGet_erase_ne _ hp]

/-! ## C29 -/

/-- **C29.** A waiting connection keeps waiting until it is accepted, its queue overflows, or a session of the same peer ends. -/
theorem C29_waiting_stays {max : Nat} {s : UdpSrv} (hs : UdpReach max s) {op : UdpOp} (ho : OrderOk s op) {p : SocketAddr}
    (hw : Waiting s p) (halive : (udpStep s op).2.crashed = false) :
    Waiting (udpStep s op).2 p ∨ (udpStep s op).1 = .accepted p ∨ ((∃ b, dgramOf p op = some b) ∧ QueueFull s p) ∨
      ∃ sid, op = .close sid ∧ OpenSession s sid p := by
  have hd := hs.ok
  rw [flag_waiting] at hw
  have hstep := udpStep_cases hd op
  generalize (udpStep s op).1 = out at hstep
  generalize (udpStep s op).2 = s' at hstep halive
  have hA : ∀ {w i r d'}, op = .accept w i → AcceptCase max (wakeAccept s.disp w) i r d' →
      flag d' p = some false ∨ r = .ok (some p) ∨ ((∃ b, dgramOf p op = some b) ∧ QueueFull s p) := by
    intro w i r d' hop h
    have h0 : flag (wakeAccept s.disp w) p = some false := by rw [flag_congr (wakeAccept_same _ _).1]; exact hw
    rcases tryRecv_flag (s := s) (wakeAccept_same _ _).1 (wakeAccept_ok hd w) i p with h1 | ⟨_, _, data, h2, h3, h4⟩ | ⟨h1, _⟩
    · rcases accept_flag h with ⟨q, hr, _, _, hoth⟩ | ⟨_, hoth⟩
      · by_cases hp : p = q
        · subst hp; exact .inr (.inl hr)
        · left; rw [hoth p hp, h1]; exact h0
      · left; rw [hoth p, h1]; exact h0
    · right; right
      rw [hop, h2]
      exact ⟨⟨_, dgramOf_of_accept h3⟩, h4⟩
    · rw [h1] at h0; cases h0
  have hR : ∀ {sid w i q r d'}, op = .recv sid w i → RecvFromCase (wakeRecv s.disp w) q i r d' →
      flag d' p = some false ∨ ((∃ b, dgramOf p op = some b) ∧ QueueFull s p) := by
    intro sid w i q r d' hop h
    have h0 : flag (wakeRecv s.disp w) p = some false := by rw [flag_congr (wakeRecv_same _ _).1]; exact hw
    rcases tryRecv_flag (s := s) (wakeRecv_same _ _).1 (wakeRecv_ok hd w) i p with h1 | ⟨_, _, data, h2, h3, h4⟩ | ⟨h1, _⟩
    · left; rw [(recv_flag h).1, h1]; exact h0
    · right
      rw [hop, h2]
      exact ⟨⟨_, dgramOf_of_recv h3⟩, h4⟩
    · rw [h1] at h0; cases h0
  cases hstep with
  | skip _ _ => exact .inl (flag_waiting.2 hw)
  | @reorder l =>
    left
    rw [flag_waiting]
    unfold flag at hw ⊢
    simp only
    rw [assocGet_perm hd.nodup ho]
    exact hw
  | acceptPanic _ => cases halive
  | acceptNone h =>
    rcases hA rfl h with h | h | h
    · exact .inl (flag_waiting.2 h)
    · cases h
    · exact .inr (.inr (.inl h))
  | acceptSome _ h =>
    rcases hA rfl h with h | h | h
    · exact .inl (flag_waiting.2 h)
    · cases h; exact .inr (.inl rfl)
    · exact .inr (.inr (.inl h))
  | recvPanic _ _ _ => cases halive
  | recvNone _ _ h =>
    rcases hR rfl h with h | h
    · exact .inl (flag_waiting.2 h)
    · exact .inr (.inr (.inl h))
  | recvErr _ _ h =>
    rcases hR rfl h with h | h
    · exact .inl (flag_waiting.2 h)
    · exact .inr (.inr (.inl h))
  | recvSome _ _ _ h =>
    rcases hR rfl h with h | h
    · exact .inl (flag_waiting.2 h)
    · exact .inr (.inr (.inl h))
  | closePanic _ _ _ => cases halive
  | @closeOk sid se d' hse hopen h =>
    by_cases hp : p = se.peer
    · right; right; right
      refine ⟨sid, rfl, ?_⟩
      unfold OpenSession
      rw [hse, hp, ← hopen]
    · left
      rw [flag_waiting]
      show flag d' p = _
      rw [(disconnect_flag h).2.1 p hp]; exact hw

/-- While the second host waits, the first one's session receives. -/
example : UdpReach 8 (exState 2) ∧ OrderOk (exState 2) (.recv 0 .readable (.dgram exPeer (exData 3))) ∧ Waiting (exState 2) exPeer2 ∧
    (udpStep (exState 2) (.recv 0 .readable (.dgram exPeer (exData 3)))).2.crashed = false :=
  ⟨exHistory_reach 2, trivial, flag_waiting.2 (by decide +kernel), by decide +kernel⟩

/-! ## C50 and C52: sessions and connections -/

theorem open_set {s : UdpSrv} {sid : Nat} {se : UdpSession} (hse : s.sessions[sid]? = some se) {j : Nat} {p : SocketAddr} :
    (s.sessions.set sid { se with closed := true })[j]? = some { peer := p, closed := false } ↔ j ≠ sid ∧ OpenSession s j p := by
  rw [List.getElem?_set]
  unfold OpenSession
  by_cases h : sid = j
  · subst h
    have := (List.getElem?_eq_some_iff.1 hse).1
    simp [this]
  · rw [if_neg h]
    exact ⟨fun hh => ⟨fun e => h e.symm, hh⟩, fun hh => hh.2⟩

theorem open_append {s : UdpSrv} {q p : SocketAddr} {j : Nat} :
    (s.sessions ++ [({ peer := q, closed := false } : UdpSession)])[j]? = some { peer := p, closed := false } ↔
      OpenSession s j p ∨ (j = s.sessions.length ∧ p = q) := by
  unfold OpenSession
  rw [List.getElem?_append]
  by_cases h : j < s.sessions.length
  · rw [if_pos h]
    exact ⟨fun hh => .inl hh, fun hh => hh.elim id (fun h2 => absurd h2.1 (by omega))⟩
  · rw [if_neg h]
    have hnone : s.sessions[j]? = none := List.getElem?_eq_none_iff.2 (by omega)
    by_cases hj : j = s.sessions.length
    · subst hj
      simp [hnone]
      exact eq_comm
    · have : ([({ peer := q, closed := false } : UdpSession)])[j - s.sessions.length]? = none :=
        List.getElem?_eq_none_iff.2 (by simp; omega)
      rw [this, hnone]
      simp [hj]

/-- Every accepted connection belongs to a running session. -/
def Owned (s : UdpSrv) : Prop := ∀ p, flag s.disp p = some true → ∃ sid, OpenSession s sid p

theorem step_owned {max : Nat} {s : UdpSrv} (hd : DispOk max s.disp) (h : Owned s) {op : UdpOp} (ho : OrderOk s op)
    (halive : (udpStep s op).2.crashed = false) : Owned (udpStep s op).2 := by
  have hstep := udpStep_cases hd op
  generalize (udpStep s op).1 = out at hstep
  generalize (udpStep s op).2 = s' at hstep halive
  have hT : ∀ {d : UdpDisp} (i : SockIn) (p : SocketAddr), d.conn = s.disp.conn → DispOk max d →
      flag (d.tryRecv i).2 p = some true → flag s.disp p = some true := by
    intro d i p hc hd h
    rcases tryRecv_flag (s := s) hc hd i p with h1 | ⟨h1, _⟩ | ⟨_, h1, _⟩
    · rw [h1, flag_congr hc] at h; exact h
    · rw [h1] at h; cases h
    · rw [h1] at h; cases h
  cases hstep with
  | skip _ _ => exact h
  | @reorder l =>
    intro p hp
    unfold flag at hp
    simp only at hp
    rw [assocGet_perm hd.nodup ho] at hp
    exact h p hp
  | acceptPanic _ => cases halive
  | @acceptNone w i d' hc =>
    intro p hp
    rcases accept_flag hc with ⟨q, hr, _⟩ | ⟨_, hoth⟩
    · cases hr
    · replace hp : flag d' p = some true := hp
      rw [hoth p] at hp
      exact h p (hT i p (wakeAccept_same _ _).1 (wakeAccept_ok hd w) hp)
  | @acceptSome w i q d' _ hc =>
    intro p hp
    replace hp : flag d' p = some true := hp
    have hgoal : (∃ sid, OpenSession s sid p) ∨ p = q := by
      rcases accept_flag hc with ⟨q', hr, _, _, hoth⟩ | ⟨hr, _⟩
      · cases hr
        by_cases hpq : p = q
        · exact .inr hpq
        · rw [hoth p hpq] at hp
          exact .inl (h p (hT i p (wakeAccept_same _ _).1 (wakeAccept_ok hd w) hp))
      · exact absurd rfl (hr q)
    rcases hgoal with ⟨sid, hsid⟩ | rfl
    · exact ⟨sid, open_append.2 (.inl hsid)⟩
    · exact ⟨s.sessions.length, open_append.2 (.inr ⟨rfl, rfl⟩)⟩
  | recvPanic _ _ _ => cases halive
  | @recvNone sid w i se d' _ _ hc =>
    intro p hp
    replace hp : flag d' p = some true := hp
    rw [(recv_flag hc).1] at hp
    exact h p (hT i p (wakeRecv_same _ _).1 (wakeRecv_ok hd w) hp)
  | @recvErr sid w i se d' _ _ hc =>
    intro p hp
    replace hp : flag d' p = some true := hp
    rw [(recv_flag hc).1] at hp
    exact h p (hT i p (wakeRecv_same _ _).1 (wakeRecv_ok hd w) hp)
  | @recvSome sid w i se b d' _ _ _ hc =>
    intro p hp
    replace hp : flag d' p = some true := hp
    rw [(recv_flag hc).1] at hp
    exact h p (hT i p (wakeRecv_same _ _).1 (wakeRecv_ok hd w) hp)
  | closePanic _ _ _ => cases halive
  | @closeOk sid se d' hse hopen hc =>
    intro p hp
    replace hp : flag d' p = some true := hp
    have hf := disconnect_flag hc
    by_cases hpq : p = se.peer
    · subst hpq; rw [hf.1] at hp; cases hp
    · rw [hf.2.1 p hpq] at hp
      obtain ⟨j, hj⟩ := h p hp
      refine ⟨j, (open_set hse).2 ⟨?_, hj⟩⟩
      rintro rfl
      unfold OpenSession at hj
      rw [hse] at hj
      cases hj
      exact hpq rfl

theorem alive_before {s : UdpSrv} {op : UdpOp} (h : (udpStep s op).2.crashed = false) : s.crashed = false := by
  cases hc : s.crashed with
  | false => rfl
  | true => rw [crashed_step hc] at h; exact hc ▸ h

theorem run_alive_before {s : UdpSrv} {ops : List UdpOp} (h : (udpRun s ops).2.crashed = false) : s.crashed = false := by
  induction ops generalizing s with
  | nil => exact h
  | cons op ops ih => exact alive_before (ih h)

/-- **C52.** Every connection in the server's table waits to be accepted or belongs to a session that has not ended:
finished sessions leave nothing behind. -/
theorem C52_no_leaked_connection (max : Nat) (ops : List UdpOp) (hl : OrderLegal (UdpSrv.new max) ops)
    (halive : (udpRun (UdpSrv.new max) ops).2.crashed = false) (p : SocketAddr) :
    let s := (udpRun (UdpSrv.new max) ops).2
    Unconnected s p ∨ Waiting s p ∨ ∃ sid, OpenSession s sid p := by
  have key : ∀ (ops : List UdpOp) (s : UdpSrv), DispOk max s.disp → Owned s → OrderLegal s ops → (udpRun s ops).2.crashed = false →
      Owned (udpRun s ops).2 := by
    intro ops
    induction ops with
    | nil => intro s _ h _ _; exact h
    | cons op ops ih =>
      intro s hd h hl hal
      exact ih _ (disp_step hd hl.1) (step_owned hd h hl.1 (run_alive_before (ops := ops) hal)) hl.2 hal
  have h := key ops (UdpSrv.new max) (DispOk.new max) (by intro p hp; cases hp) hl halive
  simp only
  rw [flag_unconnected, flag_waiting]
  cases hf : flag (udpRun (UdpSrv.new max) ops).2.disp p with
  | none => exact .inl rfl
  | some b =>
    cases b with
    | false => exact .inr (.inl rfl)
    | true => exact .inr (.inr (h p hf))

/-- At the end of the history the first host's session has ended, the second's has not. -/
example : OrderLegal (UdpSrv.new 8) exHistory ∧ (udpRun (UdpSrv.new 8) exHistory).2.crashed = false ∧
    Unconnected (udpRun (UdpSrv.new 8) exHistory).2 exPeer ∧ OpenSession (udpRun (UdpSrv.new 8) exHistory).2 1 exPeer2 :=
  ⟨exHistory_legal, by decide +kernel, by unfold Unconnected; decide +kernel, by unfold OpenSession; decide +kernel⟩

theorem closed_step {s : UdpSrv} {sid : Nat} {se : UdpSession} (h : s.sessions[sid]? = some se) (hc : se.closed = true) {max : Nat}
    (hd : DispOk max s.disp) (op : UdpOp) :
    (udpStep s op).2.sessions[sid]? = some se ∧ ∀ w i b, op = .recv sid w i → (udpStep s op).1 ≠ .got b := by
  have hstep := udpStep_cases hd op
  generalize (udpStep s op).1 = out at hstep
  generalize (udpStep s op).2 = s' at hstep
  cases hstep with
  | skip _ ho => exact ⟨h, fun w i b _ => by rcases ho with rfl | rfl <;> simp⟩
  | acceptSome _ _ =>
    refine ⟨?_, fun w i b e => by cases e⟩
    show (s.sessions ++ _)[sid]? = _
    rw [List.getElem?_append_left (List.getElem?_eq_some_iff.1 h).1]
    exact h
  | recvSome _ hs ho _ =>
    refine ⟨h, fun w i b e => ?_⟩
    cases e
    rw [h] at hs
    cases hs
    rw [hc] at ho
    cases ho
  | @closePanic sid' se' d' hs ho _ =>
    refine ⟨?_, fun w i b e => by cases e⟩
    have : sid' ≠ sid := by rintro rfl; rw [h] at hs; cases hs; rw [hc] at ho; cases ho
    show (s.sessions.set sid' _)[sid]? = _
    rw [List.getElem?_set_ne this]; exact h
  | @closeOk sid' se' d' hs ho _ =>
    refine ⟨?_, fun w i b e => by cases e⟩
    have : sid' ≠ sid := by rintro rfl; rw [h] at hs; cases hs; rw [hc] at ho; cases ho
    show (s.sessions.set sid' _)[sid]? = _
    rw [List.getElem?_set_ne this]; exact h
  | _ => exact ⟨h, fun w i b _ => by simp⟩

/-- **C52.** A session that has ended receives nothing any more, whatever happens later. -/
theorem C52_ended_session_receives_nothing {max : Nat} {s : UdpSrv} (hs : UdpReach max s) {sid : Nat} {p : SocketAddr}
    (ho : OpenSession s sid p) (hc : s.crashed = false) (ops : List UdpOp) (hl : OrderLegal s (.close sid :: ops)) :
    deliveriesTo sid (udpRun (udpStep s (.close sid)).2 ops).1 = [] := by
  have key : ∀ (ops : List UdpOp) (s : UdpSrv) (se : UdpSession), s.sessions[sid]? = some se → se.closed = true → DispOk max s.disp →
      OrderLegal s ops → deliveriesTo sid (udpRun s ops).1 = [] := by
    intro ops
    induction ops with
    | nil => intros; rfl
    | cons op ops ih =>
      intro s se hse hcl hd hl
      have h1 := closed_step hse hcl hd op
      have h2 := ih _ se h1.1 hcl (disp_step hd hl.1) hl.2
      unfold deliveriesTo at h2 ⊢
      rw [udpRun, List.filterMap_cons, h2]
      cases op with
      | recv sid' w i =>
        cases hout : (udpStep s (.recv sid' w i)).1 with
        | got b =>
          by_cases hsid : sid' = sid
          · subst hsid; exact absurd hout (h1.2 w i b rfl)
          · simp only [if_neg hsid]
        | _ => rfl
      | _ => rfl
  have hd := hs.ok
  unfold OpenSession at ho
  have hclosed : (udpStep s (.close sid)).2.sessions[sid]? = some { peer := p, closed := true } := by
    have hlt := (List.getElem?_eq_some_iff.1 ho).1
    have hstep := udpStep_cases hd (.close sid)
    generalize (udpStep s (.close sid)).1 = out at hstep
    generalize (udpStep s (.close sid)).2 = s' at hstep
    cases hstep with
    | skip hwhy _ =>
      rcases hwhy with h | ⟨sid', ⟨_, _, h1⟩ | h1, h2⟩
      · rw [hc] at h; cases h
      · cases h1
      · cases h1
        rcases h2 with h2 | ⟨se, h2, h3⟩
        · rw [h2] at ho; cases ho
        · rw [h2] at ho; cases ho; cases h3
    | closePanic hse _ _ =>
      rw [ho] at hse; cases hse
      simp only [List.getElem?_set_self hlt]
    | closeOk hse _ _ =>
      rw [ho] at hse; cases hse
      simp only [List.getElem?_set_self hlt]
  exact key ops _ _ hclosed rfl (disp_step hd hl.1) hl.2

/-- A session with a waiting datagram ends; its peer sends again and gets a new session. -/
example : UdpReach 8 (exState 1) ∧ OpenSession (exState 1) 0 exPeer ∧ (exState 1).crashed = false ∧
    OrderLegal (exState 1) (.close 0 :: [.accept .readable (.dgram exPeer (exData 4)), .recv 0 .changed .wouldBlock]) ∧
    queueOf (udpRun (udpStep (exState 1) (.close 0)).2
      [.accept .readable (.dgram exPeer (exData 4)), .recv 0 .changed .wouldBlock]).2.disp exPeer = [exData 4] :=
  ⟨exHistory_reach 1, by unfold OpenSession; decide +kernel, by decide +kernel, ⟨trivial, trivial, trivial, trivial⟩, by decide +kernel⟩

/-- Running sessions have distinct peers, and each has its connection. -/
structure Exclusive (s : UdpSrv) : Prop where
  unique : ∀ i j p, OpenSession s i p → OpenSession s j p → i = j
  connected : ∀ i p, OpenSession s i p → flag s.disp p = some true

theorem step_exclusive {max : Nat} {s : UdpSrv} (hd : DispOk max s.disp) (h : Exclusive s) {op : UdpOp} (ho : OrderOk s op)
    (hov : ¬ Overflow s op) (halive : (udpStep s op).2.crashed = false) : Exclusive (udpStep s op).2 := by
  have hstep := udpStep_cases hd op
  generalize (udpStep s op).1 = out at hstep
  generalize (udpStep s op).2 = s' at hstep halive
  have hT : ∀ {d : UdpDisp} (i : SockIn) (p : SocketAddr), (∀ b, dgramOf p op = some b → ¬ QueueFull s p) →
      (sockArr p i = (dgramOf p op).toList) → d.conn = s.disp.conn → DispOk max d →
      flag s.disp p = some true → flag (d.tryRecv i).2 p = some true := by
    intro d i p hq hsock hc hd h
    rcases tryRecv_flag (s := s) hc hd i p with h1 | ⟨_, _, data, h2, h3, h4⟩ | ⟨h1, _⟩
    · rw [h1, flag_congr hc]; exact h
    · exfalso
      rw [h2, sockArr, if_pos ⟨rfl, h3⟩] at hsock
      cases hdg : dgramOf p op with
      | none => rw [hdg] at hsock; cases hsock
      | some b => exact hq b hdg h4
    · rw [flag_congr hc, h] at h1; cases h1
  have hnov : ∀ p b, dgramOf p op = some b → ¬ QueueFull s p := fun p b hb hf => hov ⟨p, b, hb, hf⟩
  cases hstep with
  | skip _ _ => exact h
  | @reorder l =>
    refine ⟨h.unique, ?_⟩
    intro i p hi
    unfold flag
    simp only
    rw [assocGet_perm hd.nodup ho]
    exact h.connected i p hi
  | acceptPanic _ => cases halive
  | @acceptNone w i d' hc =>
    refine ⟨h.unique, ?_⟩
    intro j p hj
    rcases accept_flag hc with ⟨q, hr, _⟩ | ⟨_, hoth⟩
    · cases hr
    · show flag d' p = _
      rw [hoth p]
      exact hT i p (hnov p) (dgramOf_accept p w i).symm (wakeAccept_same _ _).1 (wakeAccept_ok hd w) (h.connected j p hj)
  | @acceptSome w i q d' _ hc =>
    rcases accept_flag hc with ⟨q', hr, hwait, hacc, hoth⟩ | ⟨hr, _⟩
    · cases hr
      have hno : ∀ j, ¬ OpenSession s j q := by
        intro j hj
        have := hT i q (hnov q) (dgramOf_accept q w i).symm (wakeAccept_same _ _).1 (wakeAccept_ok hd w) (h.connected j q hj)
        rw [hwait] at this
        cases this
      refine ⟨?_, ?_⟩
      · intro a b p ha hb
        rcases open_append.1 ha with ha1 | ⟨ha1, hap⟩
        · rcases open_append.1 hb with hb1 | ⟨hb1, hbp⟩
          · exact h.unique a b p ha1 hb1
          · exact absurd (hbp ▸ ha1) (hno a)
        · rcases open_append.1 hb with hb1 | ⟨hb1, _⟩
          · exact absurd (hap ▸ hb1) (hno b)
          · exact ha1.trans hb1.symm
      · intro a p ha
        show flag d' p = _
        rcases open_append.1 ha with ha1 | ⟨ha1, rfl⟩
        · have hpq : p ≠ q := fun e => hno a (e ▸ ha1)
          rw [hoth p hpq]
          exact hT i p (hnov p) (dgramOf_accept p w i).symm (wakeAccept_same _ _).1 (wakeAccept_ok hd w) (h.connected a p ha1)
        · exact hacc
    · exact absurd rfl (hr q)
  | recvPanic _ _ _ => cases halive
  | @recvNone sid w i se d' _ _ hc =>
    refine ⟨h.unique, fun j p hj => ?_⟩
    show flag d' p = _
    rw [(recv_flag hc).1]
    exact hT i p (hnov p) (dgramOf_recv p sid w i).symm (wakeRecv_same _ _).1 (wakeRecv_ok hd w) (h.connected j p hj)
  | @recvErr sid w i se d' _ _ hc =>
    refine ⟨h.unique, fun j p hj => ?_⟩
    show flag d' p = _
    rw [(recv_flag hc).1]
    exact hT i p (hnov p) (dgramOf_recv p sid w i).symm (wakeRecv_same _ _).1 (wakeRecv_ok hd w) (h.connected j p hj)
  | @recvSome sid w i se b d' _ _ _ hc =>
    refine ⟨h.unique, fun j p hj => ?_⟩
    show flag d' p = _
    rw [(recv_flag hc).1]
    exact hT i p (hnov p) (dgramOf_recv p sid w i).symm (wakeRecv_same _ _).1 (wakeRecv_ok hd w) (h.connected j p hj)
  | closePanic _ _ _ => cases halive
  | @closeOk sid se d' hse hopen hc =>
    have hf := disconnect_flag hc
    have hown : OpenSession s sid se.peer := by unfold OpenSession; rw [hse, ← hopen]
    refine ⟨fun a b p ha hb => h.unique a b p ((open_set hse).1 ha).2 ((open_set hse).1 hb).2, fun j p hj => ?_⟩
    have hj := (open_set hse).1 hj
    have hpq : p ≠ se.peer := by
      rintro rfl
      exact hj.1 (h.unique j sid _ hj.2 hown)
    show flag d' p = _
    rw [hf.2.1 p hpq]
    exact h.connected j p hj.2

/-- **C50**, restricted: in a history without queue overflow a peer has at most one running session, and every running session
keeps its connection until it ends itself. Missing for the full property: after an overflow a peer may have two sessions, and
the end of the older one removes the connection of the newer, see `C50_negation`. -/
theorem C50_own_connection_partial (max : Nat) (ops : List UdpOp) (hl : OrderLegal (UdpSrv.new max) ops)
    (hov : NoOverflow (UdpSrv.new max) ops) (halive : (udpRun (UdpSrv.new max) ops).2.crashed = false) :
    let s := (udpRun (UdpSrv.new max) ops).2
    (∀ i j p, OpenSession s i p → OpenSession s j p → i = j) ∧ ∀ i p, OpenSession s i p → AcceptedConn s p := by
  have key : ∀ (ops : List UdpOp) (s : UdpSrv), DispOk max s.disp → Exclusive s → OrderLegal s ops → NoOverflow s ops →
      (udpRun s ops).2.crashed = false → Exclusive (udpRun s ops).2 := by
    intro ops
    induction ops with
    | nil => intro s _ h _ _ _; exact h
    | cons op ops ih =>
      intro s hd h hl hov hal
      exact ih _ (disp_step hd hl.1) (step_exclusive hd h hl.1 hov.1 (run_alive_before (ops := ops) hal)) hl.2 hov.2 hal
  have h := key ops (UdpSrv.new max) (DispOk.new max)
    ⟨by intro i j p hi; simp [OpenSession, UdpSrv.new] at hi, by intro i p hi; simp [OpenSession, UdpSrv.new] at hi⟩ hl hov halive
  exact ⟨h.unique, fun i p hi => flag_accepted.2 (h.connected i p hi)⟩

/-- Two sessions run at the same time. -/
example : OpenSession (exState 6) 0 exPeer ∧ OpenSession (exState 6) 1 exPeer2 ∧ (exState 6).crashed = false := by
  unfold OpenSession
  decide +kernel

/-- One host sends six datagrams: the first is accepted, the fifth overflows its queue, the sixth makes a new connection, which is
accepted as a second session. -/
def staleHistory : List UdpOp :=
  [.accept .readable (.dgram exPeer (exData 1)), .accept .readable (.dgram exPeer (exData 2)),
   .accept .readable (.dgram exPeer (exData 3)), .accept .readable (.dgram exPeer (exData 4)),
   .accept .readable (.dgram exPeer (exData 5)), .accept .readable (.dgram exPeer (exData 6)),
   -- another host, so that the table is not empty
   .accept .readable (.dgram exPeer2 (exData 7))]

/-- **C50 is false**: the end of one session can remove the connection of another running session. -/
theorem C50_negation : ¬ ∀ (max : Nat) (ops : List UdpOp) (i j : Nat) (p : SocketAddr), OrderLegal (UdpSrv.new max) ops →
    let s := (udpRun (UdpSrv.new max) ops).2
    let s' := (udpStep s (.close i)).2
    i ≠ j → OpenSession s j p → AcceptedConn s p → s'.crashed = false → AcceptedConn s' p := by
  intro h
  have h1 := h 8 staleHistory 0 1 exPeer ⟨trivial, trivial, trivial, trivial, trivial, trivial, trivial, trivial⟩
  simp only [OpenSession, flag_accepted] at h1
  exact absurd (h1 (by decide) (by decide +kernel) (by decide +kernel) (by decide +kernel)) (by decide +kernel)

/-! ## C51 -/

/-- At most one connection waits. -/
def OneWaiting (s : UdpSrv) : Prop := ∀ p q, Waiting s p → Waiting s q → p = q

/-- In each state of the history at most one connection waits, and no accept round rejects what it reads. -/
def Calm (s : UdpSrv) : List UdpOp → Prop
  | [] => True
  | op :: rest => OneWaiting s ∧ (∀ w i, op = .accept w i → ¬ Rejected s i) ∧ Calm (udpStep s op).2 rest

theorem step_noticed {max : Nat} {s : UdpSrv} (hd : DispOk max s.disp) (h : ∀ p, Waiting s p → s.disp.acceptSig = true) {op : UdpOp}
    (ho : OrderOk s op) (h1 : OneWaiting s) (hrej : ∀ w i, op = .accept w i → ¬ Rejected s i)
    (halive : (udpStep s op).2.crashed = false) : ∀ p, Waiting (udpStep s op).2 p → (udpStep s op).2.disp.acceptSig = true := by
  have hT : ∀ {d : UdpDisp} (i : SockIn) (p : SocketAddr), d.conn = s.disp.conn → DispOk max d →
      flag (d.tryRecv i).2 p = some false → flag s.disp p = some false ∨ (d.tryRecv i).2.acceptSig = true := by
    intro d i p hc hd h
    rcases tryRecv_flag (s := s) hc hd i p with h1 | ⟨h1, _⟩ | ⟨_, _, _, h1⟩
    · rw [h1, flag_congr hc] at h; exact .inl h
    · rw [h1] at h; cases h
    · exact .inr h1
  have hR : ∀ {sid w i q r d'}, op = .recv sid w i → RecvFromCase (wakeRecv s.disp w) q i r d' →
      ∀ p, flag d' p = some false → d'.acceptSig = true := by
    intro sid w i q r d' hop hc p hp
    rw [(recv_flag hc).1] at hp
    rw [(recv_flag hc).2]
    rcases hT i p (wakeRecv_same _ _).1 (wakeRecv_ok hd w) hp with h2 | h2
    · exact tryRecv_sig (wakeRecv_ok hd w) i (by rw [(wakeRecv_same _ _).2.2.2]; exact h p (flag_waiting.2 h2))
    · exact h2
  have hstep := udpStep_cases hd op
  generalize (udpStep s op).1 = out at hstep
  generalize (udpStep s op).2 = s' at hstep halive
  cases hstep with
  | skip _ _ => exact h
  | @reorder l =>
    intro p hp
    rw [flag_waiting] at hp
    unfold flag at hp
    simp only at hp
    rw [assocGet_perm hd.nodup ho] at hp
    exact h p (flag_waiting.2 hp)
  | acceptPanic _ => cases halive
  | @acceptNone w i d' hc =>
    intro p hp
    exfalso
    cases hc with
    | err he => exact tryRecv_taken (s := s) (wakeAccept_same _ _).1 (wakeAccept_same _ _).2.1 (wakeAccept_ok hd w) (hrej w i rfl) he
    | none _ hall he =>
      obtain ⟨c, hc, ha⟩ := hp
      simp only [he, (recvNotify_conn _).1] at hc
      have := hall _ (assocGet_mem hc)
      rw [ha] at this
      cases this
  | @acceptSome w i q d' _ hc =>
    intro p hp
    rw [flag_waiting] at hp
    replace hp : flag d' p = some false := hp
    show d'.acceptSig = true
    rw [accept_sig hc]
    rcases accept_flag hc with ⟨q', hr, hwait, hacc, hoth⟩ | ⟨hr, _⟩
    · cases hr
      have hpq : p ≠ q := by rintro rfl; rw [hacc] at hp; cases hp
      rw [hoth p hpq] at hp
      rcases hT i p (wakeAccept_same _ _).1 (wakeAccept_ok hd w) hp with h2 | h2
      · rcases hT i q (wakeAccept_same _ _).1 (wakeAccept_ok hd w) hwait with h3 | h3
        · exact absurd (h1 p q (flag_waiting.2 h2) (flag_waiting.2 h3)) hpq
        · exact h3
      · exact h2
    · exact absurd rfl (hr q)
  | recvPanic _ _ _ => cases halive
  | recvNone _ _ hc => exact fun p hp => hR rfl hc p (flag_waiting.1 hp)
  | recvErr _ _ hc => exact fun p hp => hR rfl hc p (flag_waiting.1 hp)
  | recvSome _ _ _ hc => exact fun p hp => hR rfl hc p (flag_waiting.1 hp)
  | closePanic _ _ _ => cases halive
  | @closeOk sid se d' hse hopen hc =>
    intro p hp
    rw [flag_waiting] at hp
    replace hp : flag d' p = some false := hp
    have hf := disconnect_flag hc
    show d'.acceptSig = true
    rw [hf.2.2]
    by_cases hpq : p = se.peer
    · subst hpq; rw [hf.1] at hp; cases hp
    · rw [hf.2.1 p hpq] at hp
      exact h p (flag_waiting.2 hp)

/-- **C51**, restricted: in a history in which at most one connection waits at a time and no accept round rejects a datagram,
a waiting connection always has a pending wake-up of the accepting task. Missing for the full property: two connections
waiting at once, or a bad datagram read at the wrong moment, see `C51_negation`. -/
theorem C51_waiting_noticed_partial (max : Nat) (ops : List UdpOp) (hl : OrderLegal (UdpSrv.new max) ops)
    (hcalm : Calm (UdpSrv.new max) ops) (halive : (udpRun (UdpSrv.new max) ops).2.crashed = false) (p : SocketAddr)
    (hw : Waiting (udpRun (UdpSrv.new max) ops).2 p) : (udpRun (UdpSrv.new max) ops).2.disp.acceptSig = true := by
  have key : ∀ (ops : List UdpOp) (s : UdpSrv), DispOk max s.disp → (∀ p, Waiting s p → s.disp.acceptSig = true) → OrderLegal s ops →
      Calm s ops → (udpRun s ops).2.crashed = false →
      ∀ p, Waiting (udpRun s ops).2 p → (udpRun s ops).2.disp.acceptSig = true := by
    intro ops
    induction ops with
    | nil => intro s _ h _ _ _; exact h
    | cons op ops ih =>
      intro s hd h hl hcalm hal
      exact ih _ (disp_step hd hl.1) (step_noticed hd h hl.1 hcalm.1 hcalm.2.1 (run_alive_before (ops := ops) hal)) hl.2 hcalm.2.2 hal
  refine key ops (UdpSrv.new max) (DispOk.new max) ?_ hl hcalm halive p hw
  rintro p ⟨c, hc, _⟩
  cases hc

/-- After two operations the second host waits, and the accepting task will be woken. -/
example : Calm (UdpSrv.new 8) (exHistory.take 2) ∧ Waiting (exState 2) exPeer2 ∧ (exState 2).disp.acceptSig = true := by
  have hno : ∀ s, (∀ e ∈ s.disp.conn, e.2.accepted = true) → OneWaiting s := by
    rintro s h p q ⟨c, hc, ha⟩ _
    have := h _ (assocGet_mem hc)
    rw [ha] at this
    cases this
  refine ⟨⟨hno _ (by decide +kernel), ?_, hno _ (by decide +kernel), ?_, trivial⟩, flag_waiting.2 (by decide +kernel), by decide +kernel⟩
  · rintro w i h
    cases h
    rintro (h | h | ⟨_, h⟩)
    · exact absurd h (by decide)
    · exact not_full (by decide +kernel) _ h
    · exact absurd h (by decide +kernel)
  · rintro w i h
    cases h

/-- While one session runs, its receive rounds read the first datagrams of two new hosts; then the accepting task, woken by the
notification, accepts one of them and sees nothing further to do. -/
def lostHistory : List UdpOp :=
  [.accept .readable (.dgram exPeer (exData 1)), .recv 0 .readable (.dgram exPeer2 (exData 2)),
   .recv 0 .readable (.dgram exPeer3 (exData 3)), .accept .changed .wouldBlock]

/-- A single connection waits; the accepting task is woken by its notification, but reads an empty datagram of somebody else. -/
def lostHistory2 : List UdpOp :=
  [.accept .readable (.dgram exPeer (exData 1)), .recv 0 .readable (.dgram exPeer2 (exData 2)),
   .accept .changed (.dgram exPeer3 [])]

instance (s : UdpSrv) (op : UdpOp) : Decidable (WakeOk s op) := by
  unfold WakeOk
  split <;> infer_instance

/-- **C51 is false**: a peer may wait to be accepted while nothing will wake the accepting task before some further datagram
arrives. -/
theorem C51_negation : ¬ ∀ (max : Nat) (ops : List UdpOp) (p : SocketAddr), OrderLegal (UdpSrv.new max) ops →
    WakeLegal (UdpSrv.new max) ops → Waiting (udpRun (UdpSrv.new max) ops).2 p →
    (udpRun (UdpSrv.new max) ops).2.disp.acceptSig = true := by
  intro h
  have h1 := h 8 lostHistory exPeer2 ⟨trivial, trivial, trivial, trivial, trivial⟩
    ⟨trivial, trivial, trivial, by decide +kernel, trivial⟩ (flag_waiting.2 (by decide +kernel))
  exact absurd h1 (by decide +kernel)

/-- **C51 is false** even if only one connection ever waits. -/
theorem C51_negation_single : ¬ ∀ (max : Nat) (ops : List UdpOp) (p : SocketAddr), OrderLegal (UdpSrv.new max) ops →
    WakeLegal (UdpSrv.new max) ops → Waiting (udpRun (UdpSrv.new max) ops).2 p → OneWaiting (udpRun (UdpSrv.new max) ops).2 →
    (udpRun (UdpSrv.new max) ops).2.disp.acceptSig = true := by
  intro h
  have hconn : ∀ p, flag (udpRun (UdpSrv.new 8) lostHistory2).2.disp p = some false → p = exPeer2 := by
    have hall : ∀ e ∈ (udpRun (UdpSrv.new 8) lostHistory2).2.disp.conn, e.2.accepted = false → e.1 = exPeer2 := by decide +kernel
    intro p hp
    obtain ⟨c, hc, ha⟩ := flag_waiting.2 hp
    exact hall _ (assocGet_mem hc) ha
  have h1 := h 8 lostHistory2 exPeer2 ⟨trivial, trivial, trivial, trivial⟩
    ⟨trivial, trivial, by decide +kernel, trivial⟩ (flag_waiting.2 (by decide +kernel))
    (fun p q hp hq => (hconn p (flag_waiting.1 hp)).trans (hconn q (flag_waiting.1 hq)).symm)
  exact absurd h1 (by decide +kernel)

end Letmein.Props
