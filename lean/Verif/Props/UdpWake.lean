import Verif.Props.UdpSessions

/-!
# Property C53: queued datagrams are noticed by the receiving tasks
-/

namespace Letmein.Props

open Letmein Spec

/-- Every connection that waits to be accepted has a datagram. -/
def WaitingHasData (d : UdpDisp) : Prop := ∀ p c, assocGet d.conn p = some c → c.accepted = false → c.rxQueue ≠ []

theorem total_pos {l : List (SocketAddr × UdpConn)} {p : SocketAddr} {c : UdpConn} (h : assocGet l p = some c) (hq : c.rxQueue ≠ []) :
    0 < total l := by
  have hm := assocGet_mem h
  have hpos : 0 < c.rxQueue.length := List.length_pos_iff.2 hq
  clear h
  induction l with
  | nil => cases hm
  | cons e l ih =>
    rw [total_cons]
    rcases List.mem_cons.1 hm with rfl | hm
    · simp only; omega
    · have := ih hm; omega

theorem tryRecv_waiting {max : Nat} {d : UdpDisp} (hd : DispOk max d) (h : WaitingHasData d) (i : SockIn) : WaitingHasData (d.tryRecv i).2 := by
  intro p c hc ha
  rcases tryRecv_get hd i p with h1 | ⟨_, _, _, _, _, _, _, h1⟩ | ⟨_, b, _, _, _, h1, _⟩
  · rw [h1] at hc; exact h p c hc ha
  · rw [h1] at hc; cases hc
  · rw [h1] at hc; cases hc; simp

/-- What reading from the socket does to the receivers' signal, if no queue overflows. -/
theorem tryRecv_recvSig {max : Nat} {s : UdpSrv} {d : UdpDisp} (hc : d.conn = s.disp.conn) (hd : DispOk max d) {i : SockIn}
    (hov : ∀ p data, i = .dgram p data → 56 ≤ data.length → ¬ QueueFull s p) :
    (d.recvSig = true → (d.tryRecv i).2.recvSig = true) ∧
    ((d.tryRecv i).2.recvSig = true ∨ ((d.tryRecv i).1 = .ok () ∧
        ∀ p, flag (d.tryRecv i).2 p = some false → flag d p = some false) ∨ (d.tryRecv i).2 = d) := by
  have := tryRecv_cases hd i
  generalize (d.tryRecv i).1 = r at this
  generalize (d.tryRecv i).2 = d' at this
  cases this with
  | idle => exact ⟨id, .inr (.inr rfl)⟩
  | fail => exact ⟨id, .inr (.inr rfl)⟩
  | short h => exact ⟨id, .inr (.inr rfl)⟩
  | overflow h hcc hq => exact absurd (queueFull_of_get hc hcc hq) (hov _ _ rfl h)
  | full h hcc hl => exact ⟨id, .inr (.inr rfl)⟩
  | crash h hq hs hwhy => exact ⟨id, .inr (.inr rfl)⟩
  | @push src data b _ _ _ _ _ =>
    refine ⟨fun h => by simp [pushed, h], ?_⟩
    cases ha : (connFor d src).accepted with
    | false => left; simp [pushed, ha]
    | true =>
      right; left
      refine ⟨rfl, fun p hp => ?_⟩
      unfold flag at hp ⊢
      by_cases hps : p = src
      · subst hps
        simp only [pushed, assocGet_set_self, Option.map_some, ha] at hp
        cases hp
      · simp only [pushed, assocGet_set_ne _ _ hps] at hp
        exact hp

theorem recvNotify_sig (d : UdpDisp) (hn : d.nrQueued = total d.conn) (h : 0 < total d.recvNotify.conn) : d.recvNotify.recvSig = true := by
  rw [(recvNotify_conn d).1, ← hn] at h
  unfold UdpDisp.recvNotify
  rw [if_pos h]

theorem wakeAccept_recvSig (d : UdpDisp) (w : Wake) : (wakeAccept d w).recvSig = d.recvSig := by
  unfold wakeAccept; split <;> rfl

/-- The invariant: the counter is exact, sessions are exclusive, waiting connections have data, and data is announced. -/
structure Announced (max : Nat) (s : UdpSrv) : Prop where
  ok : DispOk max s.disp
  alive : s.crashed = false
  counted : s.disp.nrQueued = total s.disp.conn
  excl : Exclusive s
  data : WaitingHasData s.disp
  sig : 0 < total s.disp.conn → s.disp.recvSig = true

theorem recv_waiting {max : Nat} {d d' : UdpDisp} {q : SocketAddr} {i : SockIn} {r : R (Option (Arr MSG_SIZE))} (hd : DispOk max d)
    (h : RecvFromCase d q i r d') (hw : WaitingHasData d) (hf : flag (d.tryRecv i).2 q = some true) : WaitingHasData d' := by
  have h1 := tryRecv_waiting hd hw i
  cases h with
  | panic _ => exact h1
  | err _ => exact h1
  | underflow _ _ _ _ => exact h1
  | none _ _ he =>
    intro p c hc ha
    rw [he, (recvNotify_conn _).1] at hc
    exact h1 p c hc ha
  | @some _ c b q' _ hcc hq _ he =>
    intro p c' hc ha
    rw [he, (recvNotify_conn _).1] at hc
    by_cases hp : p = q
    · subst hp
      simp only [assocGet_set_self] at hc
      cases hc
      unfold flag at hf
      rw [hcc] at hf
      simp only [Option.map_some, Option.some.injEq] at hf
      rw [hf] at ha
      cases ha
    · simp only [assocGet_set_ne _ _ hp] at hc
      exact h1 p c' hc ha

theorem accept_waiting {max : Nat} {d d' : UdpDisp} {i : SockIn} {r : R (Option SocketAddr)} (hd : DispOk max d)
    (h : AcceptCase max d i r d') (hw : WaitingHasData d) : WaitingHasData d' := by
  have h1 := tryRecv_waiting hd hw i
  cases h with
  | panic _ => exact h1
  | err _ => exact h1
  | none _ _ he =>
    intro p c hc ha
    rw [he, (recvNotify_conn _).1] at hc
    exact h1 p c hc ha
  | @some _ q c hok hcc ha' hp hq _ _ _ _ _ =>
    intro p c' hc ha
    by_cases hpq : p = q
    · subst hpq; rw [hp] at hc; cases hc; cases ha
    · rw [hq p hpq] at hc; exact h1 p c' hc ha

theorem recv_announced {max : Nat} {d d' : UdpDisp} {q : SocketAddr} {i : SockIn} {r : R (Option (Arr MSG_SIZE))} (hd : DispOk max d)
    (h : RecvFromCase d q i r d') (ht : (d.tryRecv i).1 ≠ .panic ∧ (d.tryRecv i).2.nrQueued = total (d.tryRecv i).2.conn)
    (hne : r ≠ .err) (h0 : 0 < total d'.conn) : d'.recvSig = true := by
  have h2 := recv_counted hd h ht
  cases h with
  | panic h => exact absurd h ht.1
  | err _ => exact absurd rfl hne
  | underflow _ _ _ _ => exact absurd rfl h2.1
  | none _ _ he => rw [he] at h0 ⊢; exact recvNotify_sig _ ht.2 h0
  | @some _ c b q' _ hcc hq _ he =>
    have h3 := h2.2
    rw [he, (recvNotify_conn _).1, (recvNotify_conn _).2.2.1] at h3
    rw [he] at h0 ⊢
    exact recvNotify_sig _ h3 h0

theorem step_data {max : Nat} {s : UdpSrv} (hd : DispOk max s.disp) (hex : Exclusive s) (hw : WaitingHasData s.disp) {op : UdpOp} (ho : OrderOk s op)
    (hov : ¬ Overflow s op) (hal : (udpStep s op).2.crashed = false) : WaitingHasData (udpStep s op).2.disp := by
  have hstep := udpStep_cases hd op
  generalize (udpStep s op).1 = out at hstep
  generalize (udpStep s op).2 = s' at hstep hal
  have hT : ∀ {sid w i se r d'}, op = .recv sid w i → s.sessions[sid]? = some se → se.closed = false →
      RecvFromCase (wakeRecv s.disp w) se.peer i r d' → WaitingHasData d' := by
    intro sid w i se r d' hop hse hopen hc
    refine recv_waiting (wakeRecv_ok hd w) hc ?_ ?_
    · unfold WaitingHasData; rw [(wakeRecv_same _ _).1]; exact hw
    · have hf := hex.connected sid se.peer (by unfold OpenSession; rw [hse, ← hopen])
      rcases tryRecv_flag (s := s) (wakeRecv_same _ _).1 (wakeRecv_ok hd w) i se.peer with h1 | ⟨_, _, data, h2, h3, h4⟩ | ⟨h1, _⟩
      · rw [h1, flag_congr (wakeRecv_same _ _).1]; exact hf
      · exact absurd ⟨se.peer, _, by rw [hop, h2]; exact dgramOf_of_recv h3, h4⟩ hov
      · rw [flag_congr (wakeRecv_same _ _).1, hf] at h1; cases h1
  have hA : ∀ {w i r d'}, AcceptCase max (wakeAccept s.disp w) i r d' → WaitingHasData d' := by
    intro w i r d' hc
    refine accept_waiting (wakeAccept_ok hd w) hc ?_
    unfold WaitingHasData; rw [(wakeAccept_same _ _).1]; exact hw
  cases hstep with
  | skip _ _ => exact hw
  | @reorder l =>
    intro p c hc ha
    simp only at hc
    rw [assocGet_perm hd.nodup ho] at hc
    exact hw p c hc ha
  | acceptPanic hc => exact hA hc
  | acceptNone hc => exact hA hc
  | acceptSome _ hc => exact hA hc
  | recvPanic hs ho' hc => exact hT rfl hs ho' hc
  | recvNone hs ho' hc => exact hT rfl hs ho' hc
  | recvErr hs ho' hc => exact hT rfl hs ho' hc
  | recvSome _ hs ho' hc => exact hT rfl hs ho' hc
  | closePanic _ _ _ => cases hal
  | @closeOk sid se d' hse hopen hc =>
    intro p c hcc ha
    replace hcc : assocGet d'.conn p = some c := hcc
    rcases disconnect_cases s.disp se.peer with ⟨_, hx⟩ | ⟨_, ⟨_, _, hx⟩ | ⟨_, hx⟩⟩
    · rw [hx] at hc; cases hc
    · rw [hx] at hc; cases hc
    · rw [hx] at hc; cases hc
      by_cases hp : p = se.peer
      · subst hp; simp only [assocGet_erase_self] at hcc; cases hcc
      · simp only [assocGet_erase_ne _ hp] at hcc
        exact hw p c hcc ha

theorem step_announced {max : Nat} {s : UdpSrv} (hmax : max * 4 ≤ USIZE_MAX) (h : Announced max s) {op : UdpOp} (ho : OrderOk s op)
    (hov : ¬ Overflow s op) (hrej : ∀ sid w i, op = .recv sid w i → ¬ Rejected s i) : Announced max (udpStep s op).2 := by
  have hcnt := step_counted h.ok hmax h.alive h.counted ho hov
  refine ⟨disp_step h.ok ho, hcnt.1, hcnt.2, step_exclusive h.ok h.excl ho hov hcnt.1, step_data h.ok h.excl h.data ho hov hcnt.1, ?_⟩
  · -- data is announced
    have hal := hcnt.1
    have hstep := udpStep_cases h.ok op
    clear hcnt
    generalize (udpStep s op).1 = out at hstep
    generalize (udpStep s op).2 = s' at hstep hal
    have hR : ∀ {sid w i q r d'}, op = .recv sid w i → RecvFromCase (wakeRecv s.disp w) q i r d' → r ≠ .err →
        0 < total d'.conn → d'.recvSig = true := by
      intro sid w i q r d' hop hc hne h0
      refine recv_announced (wakeRecv_ok h.ok w) hc
        (tryRecv_counted (s := s) (wakeRecv_same _ _).1 (wakeRecv_ok h.ok w) ?_ hmax ?_) hne h0
      · rw [(wakeRecv_same _ _).1, (wakeRecv_same _ _).2.2.1]; exact h.counted
      · rintro p data rfl h56 hf
        exact hov ⟨p, _, by rw [hop]; exact dgramOf_of_recv h56, hf⟩
    have hovA : ∀ {w i}, op = .accept w i → ∀ p data, i = .dgram p data → 56 ≤ data.length → ¬ QueueFull s p := by
      rintro w i hop p data rfl h56 hf
      exact hov ⟨p, _, by rw [hop]; exact dgramOf_of_accept h56, hf⟩
    have hsig : ∀ w, 0 < total (wakeAccept s.disp w).conn → (wakeAccept s.disp w).recvSig = true := by
      intro w h0
      rw [(wakeAccept_same _ _).1] at h0
      rw [wakeAccept_recvSig]
      exact h.sig h0
    cases hstep with
    | skip _ _ => exact h.sig
    | @reorder l =>
      intro h0
      refine h.sig ?_
      rw [show total s.disp.conn = total l from total_perm (List.Perm.symm ho)]
      exact h0
    | acceptPanic hc => cases hal
    | @acceptNone w i d' hc =>
      intro h0
      have hcount := tryRecv_counted (s := s) (wakeAccept_same _ _).1 (wakeAccept_ok h.ok w)
        (by rw [(wakeAccept_same _ _).1, (wakeAccept_same _ _).2.2]; exact h.counted) hmax (hovA rfl)
      have hs := tryRecv_recvSig (s := s) (wakeAccept_same _ _).1 (wakeAccept_ok h.ok w) (hovA rfl)
      cases hc with
      | err he =>
        rcases hs.2 with h1 | ⟨h1, _⟩ | h1
        · exact h1
        · rw [he] at h1; cases h1
        · show ((wakeAccept s.disp w).tryRecv i).2.recvSig = true
          replace h0 : 0 < total ((wakeAccept s.disp w).tryRecv i).2.conn := h0
          rw [h1] at h0 ⊢
          exact hsig w h0
      | none _ _ he =>
        replace h0 : 0 < total d'.conn := h0
        show d'.recvSig = true
        rw [he] at h0 ⊢
        exact recvNotify_sig _ hcount.2 h0
    | @acceptSome w i q d' _ hc =>
      intro _
      show d'.recvSig = true
      have hs := tryRecv_recvSig (s := s) (wakeAccept_same _ _).1 (wakeAccept_ok h.ok w) (hovA rfl)
      have hold : flag (wakeAccept s.disp w) q = some false → (wakeAccept s.disp w).recvSig = true := by
        intro hf
        refine hsig w ?_
        rw [flag_congr (wakeAccept_same _ _).1] at hf
        obtain ⟨c, hcc, ha⟩ := flag_waiting.2 hf
        rw [(wakeAccept_same _ _).1]
        exact total_pos hcc (h.data q c hcc ha)
      have hf : flag ((wakeAccept s.disp w).tryRecv i).2 q = some false := by
        rcases accept_flag hc with ⟨q', hr, hw, _⟩ | ⟨hr, _⟩
        · cases hr; exact hw
        · exact absurd rfl (hr q)
      have hrs : d'.recvSig = ((wakeAccept s.disp w).tryRecv i).2.recvSig := by
        cases hc with
        | some _ _ _ _ _ _ _ _ _ hrs => exact hrs
      rw [hrs]
      rcases hs.2 with h1 | ⟨_, h1⟩ | h1
      · exact h1
      · exact hs.1 (hold (h1 q hf))
      · rw [h1] at hf ⊢
        exact hold hf
    | recvPanic _ _ _ => cases hal
    | recvNone _ _ hc => exact hR rfl hc (by simp)
    | @recvErr sid w i _ _ _ _ hc =>
      exfalso
      cases hc with
      | err he => exact tryRecv_taken (s := s) (wakeRecv_same _ _).1 (wakeRecv_same _ _).2.1 (wakeRecv_ok h.ok w) (hrej sid w i rfl) he
    | recvSome _ _ _ hc => exact hR rfl hc (by simp)
    | closePanic _ _ _ => cases hal
    | @closeOk sid se d' hse hopen hc =>
      intro h0
      replace h0 : 0 < total d'.conn := h0
      show d'.recvSig = true
      rcases disconnect_cases s.disp se.peer with ⟨_, hx⟩ | ⟨_, ⟨_, _, hx⟩ | ⟨_, hx⟩⟩
      · rw [hx] at hc; cases hc
      · rw [hx] at hc; cases hc
      · rw [hx] at hc; cases hc
        refine h.sig ?_
        cases hg : assocGet s.disp.conn se.peer with
        | none => rw [← assocErase_of_none hg]; exact h0
        | some c =>
          rw [total_erase h.ok.nodup hg]
          simp only at h0
          omega

/-- No receive round of the history rejects what it reads. -/
def ReceivesFine (s : UdpSrv) : List UdpOp → Prop
  | [] => True
  | op :: rest => (∀ sid w i, op = .recv sid w i → ¬ Rejected s i) ∧ ReceivesFine (udpStep s op).2 rest

/-- **C53**, restricted: in a history without queue overflow in which no receive round rejects a datagram, whenever some datagram is
queued, the receiving tasks have a pending wake-up. Missing for the full property: a rejected datagram makes the receive round
that was woken by the notification fail without passing it on, see `C53_negation`. -/
theorem C53_data_noticed_partial (max : Nat) (hmax : max * 4 < 2 ^ 64) (ops : List UdpOp) (hl : OrderLegal (UdpSrv.new max) ops)
    (hov : NoOverflow (UdpSrv.new max) ops) (hfine : ReceivesFine (UdpSrv.new max) ops) (p : SocketAddr)
    (hq : queueOf (udpRun (UdpSrv.new max) ops).2.disp p ≠ []) : (udpRun (UdpSrv.new max) ops).2.disp.recvSig = true := by
  have hmax : max * 4 ≤ USIZE_MAX := Nat.le_sub_one_of_lt hmax
  have key : ∀ (ops : List UdpOp) (s : UdpSrv), Announced max s → OrderLegal s ops → NoOverflow s ops → ReceivesFine s ops →
      Announced max (udpRun s ops).2 := by
    intro ops
    induction ops with
    | nil => intro s h _ _ _; exact h
    | cons op ops ih => intro s h hl hov hf; exact ih _ (step_announced hmax h hl.1 hov.1 hf.1) hl.2 hov.2 hf.2
  have h := key ops (UdpSrv.new max)
    ⟨DispOk.new max, rfl, rfl,
      ⟨by intro i j p hi; simp [OpenSession, UdpSrv.new] at hi, by intro i p hi; simp [OpenSession, UdpSrv.new] at hi⟩,
      (by intro p c hc; cases hc), (by intro h0; cases h0)⟩ hl hov hfine
  refine h.sig ?_
  unfold queueOf at hq
  cases hg : assocGet (udpRun (UdpSrv.new max) ops).2.disp.conn p with
  | none => rw [hg] at hq; exact absurd rfl hq
  | some c =>
    rw [hg] at hq
    exact total_pos hg (fun he => hq (by simp only [he, List.map_nil]))

/-- After two operations of the example history the second host's datagram is queued and the receiving tasks will be woken. -/
example : OrderLegal (UdpSrv.new 8) (exHistory.take 2) ∧ ReceivesFine (UdpSrv.new 8) (exHistory.take 2) ∧
    queueOf (exState 2).disp exPeer2 ≠ [] ∧ (exState 2).disp.recvSig = true := by
  refine ⟨⟨trivial, trivial, trivial⟩, ⟨?_, ?_, trivial⟩, by decide +kernel, by decide +kernel⟩
  · intro sid w i h; cases h
  · rintro sid w i h
    cases h
    rintro (h | h | ⟨_, h⟩)
    · exact absurd h (by decide)
    · exact not_full (by decide +kernel) _ h
    · exact absurd h (by decide +kernel)

/-- Two hosts are accepted. The first session is woken by the notification, reads a short datagram of a third host and fails. -/
def deafHistory : List UdpOp :=
  [.accept .readable (.dgram exPeer (exData 1)), .accept .readable (.dgram exPeer2 (exData 2)),
   .recv 0 .changed (.dgram exPeer3 [])]

/-- **C53 is false**: a datagram may wait in a running session's queue while nothing will wake the receiving task before some
further datagram arrives. -/
theorem C53_negation : ¬ ∀ (max : Nat) (ops : List UdpOp) (sid : Nat) (p : SocketAddr), OrderLegal (UdpSrv.new max) ops →
    WakeLegal (UdpSrv.new max) ops → NoOverflow (UdpSrv.new max) ops → OpenSession (udpRun (UdpSrv.new max) ops).2 sid p →
    queueOf (udpRun (UdpSrv.new max) ops).2.disp p ≠ [] → (udpRun (UdpSrv.new max) ops).2.disp.recvSig = true := by
  intro h
  have hq : ∀ s op, (∀ e ∈ s.disp.conn, e.2.rxQueue.length ≠ 4) → ¬ Overflow s op := by
    rintro s op h ⟨p, b, _, hf⟩
    exact not_full h p hf
  have h1 := h 8 deafHistory 1 exPeer2 ⟨trivial, trivial, trivial, trivial⟩ ⟨trivial, trivial, by decide +kernel, trivial⟩
    ⟨hq _ _ (by decide +kernel), hq _ _ (by decide +kernel), hq _ _ (by decide +kernel), trivial⟩
    (by unfold OpenSession; decide +kernel) (by decide +kernel)
  exact absurd h1 (by decide +kernel)

end Letmein.Props
