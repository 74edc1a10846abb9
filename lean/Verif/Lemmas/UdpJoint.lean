import Verif.Spec.UdpJoint
import Verif.Lemmas.ByteJoint
import Verif.Props.UdpWake

/-!
# The UDP level follows the message level
-/

namespace Letmein.Props
open Letmein Prog Spec

/-! ## Sessions -/

theorem open_mono {max : Nat} {s : UdpSrv} (hd : DispOk max s.disp) {op : UdpOp} {sid : Nat} {p : SocketAddr} (h : OpenSession s sid p)
    (hne : op ≠ .close sid) : OpenSession (udpStep s op).2 sid p := by
  have hstep := udpStep_cases hd op
  generalize (udpStep s op).1 = out at hstep
  generalize (udpStep s op).2 = s' at hstep
  have hset : ∀ {sid' se}, s.sessions[sid']? = some se → op = .close sid' →
      (s.sessions.set sid' { se with closed := true })[sid]? = some { peer := p, closed := false } := by
    intro sid' se hse hop
    refine (open_set hse).2 ⟨?_, h⟩
    rintro rfl
    exact hne hop
  cases hstep with
  | acceptSome _ _ => exact open_append.2 (.inl h)
  | closePanic hse _ _ => exact hset hse rfl
  | closeOk hse _ _ => exact hset hse rfl
  | _ => exact h

theorem open_inv {max : Nat} {s : UdpSrv} (hd : DispOk max s.disp) {op : UdpOp} {sid : Nat} {p : SocketAddr}
    (h : OpenSession (udpStep s op).2 sid p) :
    OpenSession s sid p ∨ ((udpStep s op).1 = .accepted p ∧ sid = s.sessions.length) := by
  have hstep := udpStep_cases hd op
  generalize (udpStep s op).1 = out at hstep
  generalize (udpStep s op).2 = s' at hstep h
  cases hstep with
  | @acceptSome _ _ q _ _ _ =>
    rcases open_append.1 h with h | ⟨h2, rfl⟩
    · exact .inl h
    · exact .inr ⟨rfl, h2⟩
  | closePanic hse _ _ => exact .inl ((open_set hse).1 h).2
  | closeOk hse _ _ => exact .inl ((open_set hse).1 h).2
  | _ => exact .inl h

theorem open_new {max : Nat} {s : UdpSrv} (hd : DispOk max s.disp) {op : UdpOp} {p : SocketAddr}
    (h : (udpStep s op).1 = .accepted p) : OpenSession (udpStep s op).2 s.sessions.length p := by
  have hstep := udpStep_cases hd op
  generalize (udpStep s op).1 = out at hstep h
  generalize (udpStep s op).2 = s' at hstep
  subst h
  cases hstep with
  | skip _ h => rcases h with h | h <;> cases h
  | acceptSome _ _ => exact open_append.2 (.inr ⟨rfl, rfl⟩)

/-- A well-formed running server. -/
structure SrvOk (max : Nat) (s : UdpSrv) : Prop where
  disp : DispOk max s.disp
  alive : s.crashed = false
  counted : s.disp.nrQueued = total s.disp.conn
  owned : Owned s
  excl : Exclusive s

theorem srvOk_step {max : Nat} {s : UdpSrv} (h : SrvOk max s) (hmax : max * 4 ≤ USIZE_MAX) {op : UdpOp} (ho : OrderOk s op)
    (hov : ¬ Overflow s op) : SrvOk max (udpStep s op).2 := by
  obtain ⟨h1, h2⟩ := step_counted h.disp hmax h.alive h.counted ho hov
  exact ⟨disp_step h.disp ho, h1, h2, step_owned h.disp h.owned ho h1, step_exclusive h.disp h.excl ho hov h1⟩

theorem srvOk_run {max : Nat} (hmax : max * 4 ≤ USIZE_MAX) (ops : List UdpOp) : ∀ (s : UdpSrv), SrvOk max s → OrderLegal s ops →
    NoOverflow s ops → SrvOk max (udpRun s ops).2 := by
  induction ops with
  | nil => intro s h _ _; exact h
  | cons op ops ih => intro s h ho hov; exact ih _ (srvOk_step h hmax ho.1 hov.1) ho.2 hov.2

theorem srvOk_new (max : Nat) : SrvOk max (UdpSrv.new max) :=
  ⟨DispOk.new max, rfl, rfl, fun p h => by simp [flag, UdpSrv.new, UdpDisp.new, assocGet] at h,
    ⟨by intro i j p hi; simp [OpenSession, UdpSrv.new] at hi, by intro i p hi; simp [OpenSession, UdpSrv.new] at hi⟩⟩

/-! ## Datagrams -/

/-- What is read from the buffer is what the operation finds in the socket. -/
theorem taken_eq {p : SocketAddr} {op : UdpOp} {a a' : List Bytes} (h : Taken p (sockOf op) a a') (h56 : ∀ x ∈ a, x.length = 56)
    (h1 : a.length ≤ 1) : a = (dgramOf p op).toList ++ a' := by
  cases h with
  | other h =>
    have : dgramOf p op = none := by
      unfold dgramOf
      split
      · rename_i q data hq
        by_cases hqp : q = p
        · subst hqp; exact absurd hq (h data)
        · rw [if_neg (fun hh => hqp hh.1)]
      · rfl
    rw [this]; rfl
  | @one x y data h =>
    have hl := h56 data (by simp)
    have : x = [] ∧ y = [] := by
      simp only [List.length_append, List.length_cons] at h1
      exact ⟨List.eq_nil_of_length_eq_zero (by omega), List.eq_nil_of_length_eq_zero (by omega)⟩
    obtain ⟨rfl, rfl⟩ := this
    unfold dgramOf
    simp only [h]
    rw [if_pos ⟨trivial, by omega⟩, List.take_of_length_le (by omega)]
    rfl

theorem taken_mem {p : SocketAddr} {op : UdpOp} {a a' : List Bytes} (h : Taken p (sockOf op) a a') {data : Bytes}
    (hd : sockOf op = some (.dgram p data)) : data ∈ a := by
  cases h with
  | other h => exact absurd hd (h data)
  | one h => rw [hd] at h; injection h with h; injection h with _ h; subst h; simp

/-- A receive round of a session whose datagrams are `ms`. -/
theorem round {max : Nat} {s : UdpSrv} (hd : DispOk max s.disp) (hc : s.crashed = false) {sid : Nat} {p : SocketAddr}
    (ho : OpenSession s sid p) {w : Wake} {i : SockIn} (halive : (udpStep s (.recv sid w i)).2.crashed = false)
    (hr : ¬ Rejected s i) {a a' ms : List Bytes} (hms : queueOf s.disp p ++ a = ms) (h56 : ∀ x ∈ ms, x.length = 56) (h1 : ms.length ≤ 1)
    (ht : Taken p (some i) a a') :
    ((udpStep s (.recv sid w i)).1 = .none ∧ queueOf (udpStep s (.recv sid w i)).2.disp p ++ a' = ms) ∨
    (∃ b : Arr MSG_SIZE, (udpStep s (.recv sid w i)).1 = .got b ∧ ms = [b.val] ∧ queueOf (udpStep s (.recv sid w i)).2.disp p ++ a' = []) := by
  have hsub : ∀ x ∈ a, x.length = 56 := fun x hx => h56 x (by rw [← hms]; exact List.mem_append_right _ hx)
  have hlen : a.length ≤ 1 := by rw [← hms, List.length_append] at h1; omega
  have hta := taken_eq (op := .recv sid w i) ht hsub hlen
  have hh : Harmless p s (.recv sid w i) := by
    refine ⟨halive, ?_, fun sid h => by cases h⟩
    intro b hb
    obtain ⟨data, h2, h3, -⟩ := dgramOf_inv hb
    injection h2 with h2
    obtain ⟨h4, h5⟩ := not_rejected_takes (d := s.disp) hd hr data h2 h3
    exact ⟨⟨p, ho⟩, h4, h5⟩
  have hflow := step_flow_eq hd (op := .recv sid w i) trivial (s.sessions.map (·.peer)) (List.prefix_refl _) p hh
  have hpeer : (s.sessions.map (·.peer))[sid]? = some p := by rw [List.getElem?_map, ho]; rfl
  have hall : (deliveryOf (s.sessions.map (·.peer)) p (.recv sid w i, (udpStep s (.recv sid w i)).1)).toList ++
      (queueOf (udpStep s (.recv sid w i)).2.disp p ++ a') = ms := by
    rw [← List.append_assoc, hflow, List.append_assoc, ← hta, hms]
  have htake := tryRecv_taken (s := s) (wakeRecv_same _ _).1 (wakeRecv_same _ _).2.1 (wakeRecv_ok hd w) hr
  have hstep := udpStep_cases hd (.recv sid w i)
  generalize (udpStep s (.recv sid w i)).1 = out at hstep hall
  generalize (udpStep s (.recv sid w i)).2 = s' at hstep halive hall
  unfold OpenSession at ho
  cases hstep with
  | skip hwhy _ =>
    exfalso
    rcases hwhy with h | ⟨sid', h1 | h1, h2⟩
    · rw [hc] at h; cases h
    · obtain ⟨w', i', h1⟩ := h1
      cases h1
      rcases h2 with h2 | ⟨se, h2, h3⟩
      · rw [h2] at ho; cases ho
      · rw [h2] at ho; cases ho; cases h3
    · cases h1
  | recvPanic _ _ _ => cases halive
  | recvNone _ _ _ => exact .inl ⟨rfl, hall⟩
  | recvErr _ _ h =>
    cases h with
    | err h => exact absurd h htake
  | @recvSome _ _ _ se b d' _ _ _ _ =>
    right
    simp only [deliveryOf, hpeer, if_true, Option.toList_some, List.cons_append, List.nil_append] at hall
    have : queueOf d' p ++ a' = [] := by
      rw [← hall, List.length_cons] at h1
      exact List.eq_nil_of_length_eq_zero (by omega)
    simp only [this] at hall
    exact ⟨b, rfl, hall.symm, this⟩

/-- Other operations leave the peer's datagrams alone. -/
theorem others_flow {max : Nat} {s : UdpSrv} (h : SrvOk max s) (hmax : max * 4 ≤ USIZE_MAX) {side : SrvSide} {op : UdpOp} {p : SocketAddr}
    (hf : Foreign s side op) (ho : OrderOk s op) (hov : ¬ Overflow s op)
    (hroom : (dgramOf p op).isSome → Unconnected s p → s.disp.conn.length < s.disp.maxConn)
    (hown : ∀ sid, OpenSession s sid p → ∃ q, side = .running sid q) {a a' ms : List Bytes} (hms : queueOf s.disp p ++ a = ms)
    (h56 : ∀ x ∈ ms, x.length = 56) (h1 : ms.length ≤ 1) (ht : Taken p (sockOf op) a a') :
    queueOf (udpStep s op).2.disp p ++ a' = ms := by
  have hsub : ∀ x ∈ a, x.length = 56 := fun x hx => h56 x (by rw [← hms]; exact List.mem_append_right _ hx)
  have hlen : a.length ≤ 1 := by rw [← hms, List.length_append] at h1; omega
  have hta := taken_eq ht hsub hlen
  have hh : Harmless p s op := by
    refine ⟨(srvOk_step h hmax ho hov).alive, ?_, ?_⟩
    · intro b hb
      refine ⟨?_, fun hf => hov ⟨p, b, hb, hf⟩, hroom (by rw [hb]; rfl)⟩
      cases hf with
      | accept w i => trivial
      | recv sid w i _ hopen => obtain ⟨q, hq⟩ := hopen; exact ⟨q, hq⟩
      | close sid _ => cases hb
      | reorder l => cases hb
    · rintro sid rfl hopen
      cases hf with
      | close _ hno =>
        obtain ⟨q, hq⟩ := hown sid hopen
        exact hno q hq
  have hflow := step_flow_eq h.disp ho (s.sessions.map (·.peer)) (List.prefix_refl _) p hh
  have hnone : deliveryOf (s.sessions.map (·.peer)) p (op, (udpStep s op).1) = none := by
    cases hf with
    | accept w i => rfl
    | close sid _ => rfl
    | reorder l => rfl
    | recv sid w i hno hopen =>
      obtain ⟨q, hq⟩ := hopen
      generalize (udpStep s (.recv sid w i)).1 = out
      cases out <;> try rfl
      simp only [deliveryOf]
      rw [if_neg]
      rw [List.getElem?_map, hq]
      intro e
      simp only [Option.map_some, Option.some.injEq] at e
      subst e
      obtain ⟨x, hx⟩ := hown sid hq
      exact hno x hx
  rw [hnone] at hflow
  simp only [Option.toList_none, List.nil_append] at hflow
  rw [hflow, List.append_assoc, ← hta, hms]

/-- A peer without connection and without datagrams stays unconnected. -/
theorem flag_none_stays {max : Nat} {s : UdpSrv} (h : SrvOk max s) {op : UdpOp} {p : SocketAddr} (hf : flag s.disp p = none)
    (ho : OrderOk s op) (hs : ∀ data, sockOf op ≠ some (.dgram p data)) : flag (udpStep s op).2.disp p = none ∧ (udpStep s op).1 ≠ .accepted p := by
  have hT : ∀ {d : UdpDisp} {i : SockIn}, sockOf op = some i → d.conn = s.disp.conn → DispOk max d → flag (d.tryRecv i).2 p = none := by
    intro d i hi hc hd
    have h0 : flag d p = none := by rw [flag_congr hc]; exact hf
    have := tryRecv_get hd i p
    rcases this with h1 | ⟨c, data, h1, -⟩ | ⟨data, b, h1, -⟩
    · unfold flag; rw [h1]; exact h0
    · rw [h1] at hi; exact absurd hi (hs data)
    · rw [h1] at hi; exact absurd hi (hs data)
  have hstep := udpStep_cases h.disp op
  generalize (udpStep s op).1 = out at hstep
  generalize (udpStep s op).2 = s' at hstep
  cases hstep with
  | skip _ ho => exact ⟨hf, by rcases ho with rfl | rfl <;> simp⟩
  | reorder =>
    refine ⟨?_, by simp⟩
    unfold flag
    simp only
    rw [assocGet_perm h.disp.nodup ho]
    exact hf
  | acceptPanic hc =>
    rcases accept_flag hc with ⟨q, hr, _⟩ | ⟨_, hoth⟩
    · cases hr
    · exact ⟨(hoth p).trans (hT rfl (wakeAccept_same _ _).1 (wakeAccept_ok h.disp _)), by simp⟩
  | acceptNone hc =>
    rcases accept_flag hc with ⟨q, hr, _⟩ | ⟨_, hoth⟩
    · cases hr
    · exact ⟨(hoth p).trans (hT rfl (wakeAccept_same _ _).1 (wakeAccept_ok h.disp _)), by simp⟩
  | @acceptSome w i q d' _ hc =>
    rcases accept_flag hc with ⟨q', hr, hw, _, hoth⟩ | ⟨hr, _⟩
    · cases hr
      have hpq : p ≠ q := by
        rintro rfl
        rw [hT rfl (wakeAccept_same _ _).1 (wakeAccept_ok h.disp _)] at hw
        cases hw
      refine ⟨(hoth p hpq).trans (hT rfl (wakeAccept_same _ _).1 (wakeAccept_ok h.disp _)), ?_⟩
      intro e; injection e with e; exact hpq e.symm
    · exact absurd rfl (hr _)
  | recvPanic _ _ hc => exact ⟨((recv_flag hc).1 p).trans (hT rfl (wakeRecv_same _ _).1 (wakeRecv_ok h.disp _)), by simp⟩
  | recvNone _ _ hc => exact ⟨((recv_flag hc).1 p).trans (hT rfl (wakeRecv_same _ _).1 (wakeRecv_ok h.disp _)), by simp⟩
  | recvErr _ _ hc => exact ⟨((recv_flag hc).1 p).trans (hT rfl (wakeRecv_same _ _).1 (wakeRecv_ok h.disp _)), by simp⟩
  | recvSome _ _ _ hc => exact ⟨((recv_flag hc).1 p).trans (hT rfl (wakeRecv_same _ _).1 (wakeRecv_ok h.disp _)), by simp⟩
  | closePanic _ _ hx =>
    refine ⟨?_, by simp⟩
    rename_i sid se d' _ _
    rcases disconnect_cases s.disp se.peer with ⟨_, h2⟩ | ⟨_, ⟨_, _, h2⟩ | ⟨_, h2⟩⟩
    · rw [h2] at hx; cases hx; exact hf
    · rw [h2] at hx; cases hx
      unfold flag
      by_cases hp : p = se.peer
      · subst hp; simp only [assocGet_erase_self]; rfl
      · simp only [assocGet_erase_ne _ hp]; exact hf
    · rw [h2] at hx; cases hx
  | closeOk _ _ hx =>
    refine ⟨?_, by simp⟩
    rename_i sid se d' _ _
    have hg := disconnect_flag hx
    by_cases hp : p = se.peer
    · subst hp; exact hg.1
    · exact (hg.2.1 p hp).trans hf

/-- The client's socket. -/
structure CliOk (you : SocketAddr) (s : UdpSrv) : Prop where
  disp : DispOk 1 s.disp
  alive : s.crashed = false
  counted : s.disp.nrQueued = total s.disp.conn
  sess : OpenSession s 0 you
  only : ∀ e ∈ s.disp.conn, e.1 = you

theorem cliOk_start (you : SocketAddr) : CliOk you (UdpSrv.client you) :=
  ⟨DispOk.new 1, rfl, rfl, rfl, by intro e he; cases he⟩

theorem cli_not_rejected {you : SocketAddr} {s : UdpSrv} (h : CliOk you s) {i : SockIn} (hi : i = .wouldBlock ∨ ∃ data, i = .dgram you data ∧ data.length = 56)
    (hq : (queueOf s.disp you).length ≤ 1) : ¬ Rejected s i := by
  rcases hi with rfl | ⟨data, rfl, hl⟩
  · exact id
  · rintro (h1 | ⟨c, h1, h2⟩ | ⟨h1, h2⟩)
    · omega
    · simp only [queueOf, h1, List.length_map] at hq; omega
    · rw [h.disp.max_eq] at h2
      obtain ⟨e, he⟩ := List.exists_mem_of_length_pos (l := s.disp.conn) (by omega)
      have := h.only e he
      have h3 := assocGet_of_mem h.disp.nodup (show (e.1, e.2) ∈ s.disp.conn from he)
      rw [this, h1] at h3
      cases h3

theorem cli_no_overflow {you : SocketAddr} {s : UdpSrv} (h : CliOk you s) {i : SockIn} (hi : i = .wouldBlock ∨ ∃ data, i = .dgram you data ∧ data.length = 56)
    (hq : (queueOf s.disp you).length ≤ 1) (w : Wake) : ¬ Overflow s (.recv 0 w i) := by
  rintro ⟨p, b, hb, hf⟩
  obtain ⟨data, h2, h3, -⟩ := dgramOf_inv hb
  injection h2 with h2
  subst h2
  exact (cli_not_rejected h hi hq) (.inr (.inl hf))

theorem cliOk_step {you : SocketAddr} {s : UdpSrv} (h : CliOk you s) {i : SockIn} (hi : i = .wouldBlock ∨ ∃ data, i = .dgram you data ∧ data.length = 56)
    (hq : (queueOf s.disp you).length ≤ 1) (w : Wake) : CliOk you (udpStep s (.recv 0 w i)).2 := by
  obtain ⟨h1, h2⟩ := step_counted h.disp (by decide) h.alive h.counted (op := .recv 0 w i) trivial (cli_no_overflow h hi hq w)
  refine ⟨disp_step h.disp trivial, h1, h2, open_mono h.disp h.sess (by simp), ?_⟩
  have hT : ∀ e ∈ ((wakeRecv s.disp w).tryRecv i).2.conn, e.1 = you := by
    have := tryRecv_cases (wakeRecv_ok h.disp w) i
    generalize ((wakeRecv s.disp w).tryRecv i).1 = r at this
    generalize ((wakeRecv s.disp w).tryRecv i).2 = d' at this
    have h0 : ∀ e ∈ (wakeRecv s.disp w).conn, e.1 = you := by rw [(wakeRecv_same _ _).1]; exact h.only
    cases this with
    | overflow _ _ _ => exact fun e he => h0 e (mem_assocErase he).1
    | @push src data b _ _ _ _ _ =>
      intro e he
      rcases List.mem_cons.1 he with rfl | he
      · rcases hi with hi | ⟨_, hi, _⟩
        · cases hi
        · injection hi
      · exact h0 e (mem_assocErase he).1
    | _ => exact h0
  have hstep := udpStep_cases h.disp (.recv 0 w i)
  generalize (udpStep s (.recv 0 w i)).1 = out at hstep
  generalize (udpStep s (.recv 0 w i)).2 = s' at hstep
  have hse := h.sess
  unfold OpenSession at hse
  have hR : ∀ {p r d'}, p = you → RecvFromCase (wakeRecv s.disp w) p i r d' → ∀ e ∈ d'.conn, e.1 = you := by
    intro p r d' hp hc
    subst hp
    cases hc with
    | none _ _ he => rw [he, (recvNotify_conn _).1]; exact hT
    | @some _ c b q _ _ _ _ he =>
      rw [he, (recvNotify_conn _).1]
      intro e he
      rcases List.mem_cons.1 he with rfl | he
      · rfl
      · exact hT e (mem_assocErase he).1
    | _ => exact hT
  cases hstep with
  | skip _ _ => exact h.only
  | recvPanic hs _ hc => rw [hs] at hse; cases hse; exact hR rfl hc
  | recvNone hs _ hc => rw [hs] at hse; cases hse; exact hR rfl hc
  | recvErr hs _ hc => rw [hs] at hse; cases hse; exact hR rfl hc
  | recvSome _ hs _ hc => rw [hs] at hse; cases hse; exact hR rfl hc

end Letmein.Props
