import Verif.Lemmas.UdpJoint

/-!
# An honest exchange over UDP on a busy server (C74)
-/

namespace Letmein.Props
open Letmein Prog Spec

theorem reads_eq (op : UdpOp) : op.reads = sockOf op := by cases op <;> rfl

/-- The client's session in the server and the datagrams on their way to it. -/
def SideRel (me : SocketAddr) (sess : Prog Unit) (ss : UdpSrv) (a : List Bytes) (js : Prog Unit) (ja : List Message) : SrvSide → Prop
  | .waiting => js = sess ∧ (∀ sid, ¬ OpenSession ss sid me) ∧ queueOf ss.disp me ++ a = ja.map wireOf
  | .running sid p => js = p ∧ OpenSession ss sid me ∧ queueOf ss.disp me ++ a = ja.map wireOf
  | .ended x => js = .ret x ∧ flag ss.disp me = none ∧ a = [] ∧ ja = []

/-- The UDP level state `U` corresponds to the message level state `J`. -/
structure URel (max : Nat) (me you : SocketAddr) (sess : Prog Unit) (U : UdpJoint) (J : Joint) : Prop where
  srv : SrvOk max U.ssock
  cli : CliOk you U.csock
  client : U.client = J.client
  side : SideRel me sess U.ssock U.c2s J.server J.c2s U.server
  s2c : queueOf U.csock.disp you ++ U.s2c = J.s2c.map wireOf
  reqs : U.reqs = J.reqs
  cMagic : SendsMagic J.client
  sMagic : SendsMagic J.server
  c2sMagic : ∀ m ∈ J.c2s, m.magic = MAGIC
  s2cMagic : ∀ m ∈ J.s2c, m.magic = MAGIC

/-- What the message level guarantees. -/
structure JFacts (J : Joint) : Prop where
  c2s : J.c2s.length ≤ 1
  s2c : J.s2c.length ≤ 1
  ended : ∀ x, J.server = .ret x → J.c2s = []
  sending : ∀ m k, J.client = .act (.send m) k → ∀ x, J.server ≠ .ret x

theorem phase_facts {mac : MacFn} {peer : IpAddr} {u : UserId} {r : ResourceId} {key : Key} {res : Resource} {pt : PortType} {n : Nat} {J : Joint}
    (hp : Phase mac peer u r key res pt n J) : JFacts J := by
  unfold Phase at hp
  have e : ∀ {a : Act}, (∃ k, J.server = .act a k) → ∀ x, J.server = .ret x → False := by
    intro a ⟨k, hk⟩ x hx
    rw [hk] at hx; cases hx
  have c : ∀ {P : Prop}, J.client = .ret (.ok ()) → ∀ m k, J.client = .act (.send m) k → P := by
    intro P h m k hx
    rw [h] at hx; cases hx
  have d : ∀ {P : Prop}, (∃ k, J.client = .act .recv k) → ∀ m k, J.client = .act (.send m) k → P := by
    intro P ⟨k, h⟩ m k hx
    rw [h] at hx; injection hx with hx; cases hx
  split at hp
  all_goals first
    | exact hp.elim
    | (obtain ⟨-, ⟨k, h2, -⟩, h3, h4, -⟩ := hp
       exact ⟨by rw [h3]; simp, by rw [h4]; simp, fun x hx => (e ⟨k, h2⟩ x hx).elim, fun _ _ _ x hx => e ⟨k, h2⟩ x hx⟩)
    | (obtain ⟨_, -, ⟨k, h2, -⟩, h3, h4, -⟩ := hp
       exact ⟨by rw [h3]; simp, by rw [h4]; simp, fun x hx => (e ⟨k, h2⟩ x hx).elim, fun _ _ _ x hx => e ⟨k, h2⟩ x hx⟩)
    | (obtain ⟨_, _, -, ⟨k, h2, -⟩, h3, h4, -⟩ := hp
       exact ⟨by rw [h3]; simp, by rw [h4]; simp, fun x hx => (e ⟨k, h2⟩ x hx).elim, fun _ _ _ x hx => e ⟨k, h2⟩ x hx⟩)
    | (obtain ⟨_, ⟨k, h1, -⟩, -, h3, h4, -⟩ := hp
       exact ⟨by rw [h3]; simp, by rw [h4]; simp, fun _ _ => h3, d ⟨k, h1⟩⟩)
    | (obtain ⟨h1, -, h3, h4, -⟩ := hp
       exact ⟨by rw [h3]; simp, by rw [h4]; simp, fun _ _ => h3, c h1⟩)

theorem wires_56 {q : List Message} (h : ∀ m ∈ q, m.magic = MAGIC) : ∀ x ∈ q.map wireOf, x.length = 56 := by
  intro x hx
  obtain ⟨m, hm, rfl⟩ := List.mem_map.1 hx
  exact (msg_codec m (h m hm)).1

theorem wires_one {q : List Message} {b : Arr MSG_SIZE} (h : q.map wireOf = [b.val]) : ∃ m, q = [m] ∧ b.val = wireOf m := by
  cases q with
  | nil => cases h
  | cons m q =>
    cases q with
    | nil => exact ⟨m, rfl, by simpa using h.symm⟩
    | cons m' q => have := congrArg List.length h; simp at this

section
variable {max : Nat} {me you : SocketAddr} {sess : Prog Unit}

/-- A receive round of the client. -/
theorem urel_cRecv {k : RecvOut → Prog Unit} {cs s ss a b r w i b'} {J : Joint} (h : URel max me you sess ⟨.act .recv k, cs, s, ss, a, b, r⟩ J) (hf : JFacts J)
    (hi : i = .wouldBlock ∨ ∃ data, i = .dgram you data) (ht : Taken you (some i) b b') :
    ((udpStep cs (.recv 0 w i)).1 = .none ∧
      URel max me you sess ⟨afterRound k (udpStep cs (.recv 0 w i)).1, (udpStep cs (.recv 0 w i)).2, s, ss, a, b', r⟩ J) ∨
    (∃ m, J.s2c = [m] ∧ JStep J { J with client := k (.msg m), s2c := [] } ∧
      URel max me you sess ⟨afterRound k (udpStep cs (.recv 0 w i)).1, (udpStep cs (.recv 0 w i)).2, s, ss, a, b', r⟩
        { J with client := k (.msg m), s2c := [] }) := by
  obtain ⟨h1, h2, h3, h4, h5, h6, h7, h8, h9, h10⟩ := h
  simp only at h1 h2 h3 h4 h5 h6
  have hlen : (J.s2c.map wireOf).length ≤ 1 := by rw [List.length_map]; exact hf.s2c
  have h56 := wires_56 h10
  have hq : (queueOf cs.disp you).length ≤ 1 := by rw [← h5, List.length_append] at hlen; omega
  have hi' : i = .wouldBlock ∨ ∃ data, i = .dgram you data ∧ data.length = 56 := by
    rcases hi with hi | ⟨data, hi⟩
    · exact .inl hi
    · refine .inr ⟨data, hi, h56 data ?_⟩
      rw [← h5]
      exact List.mem_append_right _ (taken_mem (op := .recv 0 w i) ht (by rw [hi]; rfl))
  have hc := cliOk_step h2 hi' hq w
  rcases round h2.disp h2.alive h2.sess hc.alive (cli_not_rejected h2 hi' hq) h5 h56 hlen ht with ⟨h11, h12⟩ | ⟨x, h11, h12, h13⟩
  · left
    refine ⟨h11, ?_⟩
    rw [h11]
    exact ⟨h1, hc, h3, h4, h12, h6, h7, h8, h9, h10⟩
  · right
    obtain ⟨m, hm, hx⟩ := wires_one h12
    refine ⟨m, hm, ?_, ?_⟩
    · obtain ⟨jc, js, ja, jb, jr⟩ := J
      simp only at h3 hm ⊢
      subst hm
      rw [← h3]
      exact .cRecv
    · have hdec : Message.deserialize x.val = .ok m := by rw [hx]; exact (msg_codec m (h10 m (by rw [hm]; simp))).2
      refine ⟨h1, hc, ?_, h4, h13, h6, ?_, h8, h9, by intro y hy; cases hy⟩
      · rw [h11]; simp only [afterRound, afterDatagram, hdec]
      · rw [← h3] at h7; exact SendsMagic_next h7 (.msg m)

/-- A receive round of the session. -/
theorem urel_sRecv {c cs sid} {k : RecvOut → Prog Unit} {ss a b r w i a'} {J : Joint}
    (h : URel max me you sess ⟨c, cs, .running sid (.act .recv k), ss, a, b, r⟩ J) (hf : JFacts J) (hmax : max * 4 ≤ USIZE_MAX)
    (hov : ¬ Overflow ss (.recv sid w i)) (hrej : ¬ Rejected ss i) (ht : Taken me (some i) a a') :
    ((udpStep ss (.recv sid w i)).1 = .none ∧
      URel max me you sess ⟨c, cs, .running sid (afterRound k (udpStep ss (.recv sid w i)).1), (udpStep ss (.recv sid w i)).2, a', b, r⟩ J) ∨
    (∃ m, J.c2s = [m] ∧ JStep J { J with server := k (.msg m), c2s := [] } ∧
      URel max me you sess ⟨c, cs, .running sid (afterRound k (udpStep ss (.recv sid w i)).1), (udpStep ss (.recv sid w i)).2, a', b, r⟩
        { J with server := k (.msg m), c2s := [] }) := by
  obtain ⟨h1, h2, h3, ⟨h4, ho, hq⟩, h5, h6, h7, h8, h9, h10⟩ := h
  simp only at h1 h2 h3 h4 ho hq h5 h6
  have hlen : (J.c2s.map wireOf).length ≤ 1 := by rw [List.length_map]; exact hf.c2s
  have h56 := wires_56 h9
  have hs := srvOk_step h1 hmax (op := .recv sid w i) trivial hov
  have ho' := open_mono h1.disp (op := .recv sid w i) ho (by simp)
  rcases round h1.disp h1.alive ho hs.alive hrej hq h56 hlen ht with ⟨h11, h12⟩ | ⟨x, h11, h12, h13⟩
  · left
    refine ⟨h11, hs, h2, h3, ⟨?_, ho', h12⟩, h5, h6, h7, h8, h9, h10⟩
    rw [h11]; exact h4
  · right
    obtain ⟨m, hm, hx⟩ := wires_one h12
    refine ⟨m, hm, ?_, ?_⟩
    · obtain ⟨jc, js, ja, jb, jr⟩ := J
      simp only at h4 hm ⊢
      subst hm
      rw [h4]
      exact .sRecv
    · have hdec : Message.deserialize x.val = .ok m := by rw [hx]; exact (msg_codec m (h9 m (by rw [hm]; simp))).2
      refine ⟨hs, h2, h3, ⟨?_, ho', h13⟩, h5, h6, h7, ?_, (by intro y hy; cases hy), h10⟩
      · rw [h11]; simp only [afterRound, afterDatagram, hdec]
      · rw [h4] at h8; exact SendsMagic_next h8 (.msg m)

/-- Anything else in the server. -/
theorem urel_other {c cs s ss a b r op a'} {J : Joint} (h : URel max me you sess ⟨c, cs, s, ss, a, b, r⟩ J) (hf : JFacts J)
    (hmax : max * 4 ≤ USIZE_MAX) (hfor : Foreign ss s op) (ht : Taken me op.reads a a') (ho : OrderOk ss op) (hov : ¬ Overflow ss op)
    (hroom : (dgramOf me op).isSome → Unconnected ss me → ss.disp.conn.length < ss.disp.maxConn) :
    URel max me you sess ⟨c, cs, afterForeign me sess ss.sessions.length s (udpStep ss op).1, (udpStep ss op).2, a', b, r⟩ J := by
  rw [reads_eq] at ht
  obtain ⟨h1, h2, h3, h4, h5, h6, h7, h8, h9, h10⟩ := h
  simp only at h1 h2 h3 h4 h5 h6
  have hlen : (J.c2s.map wireOf).length ≤ 1 := by rw [List.length_map]; exact hf.c2s
  have h56 := wires_56 h9
  have hs := srvOk_step h1 hmax ho hov
  refine ⟨hs, h2, h3, ?_, h5, h6, h7, h8, h9, h10⟩
  simp only
  cases s with
  | waiting =>
    obtain ⟨h4, h11, h12⟩ := h4
    have hfl := others_flow h1 hmax hfor ho hov hroom (fun sid hx => absurd hx (h11 sid)) h12 h56 hlen ht
    by_cases hacc : (udpStep ss op).1 = .accepted me
    · simp only [hacc, afterForeign, if_true]
      exact ⟨h4, open_new h1.disp hacc, hfl⟩
    · have : afterForeign me sess ss.sessions.length .waiting (udpStep ss op).1 = .waiting := by
        cases hx : (udpStep ss op).1 with
        | accepted p =>
          simp only [afterForeign]
          rw [if_neg]
          rintro rfl
          exact hacc hx
        | _ => rfl
      rw [this]
      refine ⟨h4, fun sid hx => ?_, hfl⟩
      rcases open_inv h1.disp hx with hx | ⟨hx, -⟩
      · exact h11 sid hx
      · exact hacc hx
  | running sid p =>
    obtain ⟨h4, h11, h12⟩ := h4
    have hown : ∀ sid', OpenSession ss sid' me → ∃ q, SrvSide.running sid p = .running sid' q := by
      intro sid' hx
      have := h1.excl.unique _ _ _ h11 hx
      subst this
      exact ⟨p, rfl⟩
    have hfl := others_flow h1 hmax hfor ho hov hroom hown h12 h56 hlen ht
    have hne : op ≠ .close sid := by
      rintro rfl
      cases hfor with
      | close _ hno => exact hno p rfl
    have hop := open_mono h1.disp h11 hne
    have : afterForeign me sess ss.sessions.length (.running sid p) (udpStep ss op).1 = .running sid p := by
      cases hx : (udpStep ss op).1 with
      | accepted q =>
        simp only [afterForeign]
        rw [if_neg]
        rintro rfl
        have h13 := hs.excl.unique _ _ _ hop (open_new h1.disp hx)
        have h14 := (List.getElem?_eq_some_iff.1 h11).1
        omega
      | _ => rfl
    rw [this]
    exact ⟨h4, hop, hfl⟩
  | ended x =>
    obtain ⟨h4, h11, rfl, h13⟩ := h4
    have hno : (∀ data, sockOf op ≠ some (.dgram me data)) ∧ a' = [] := by
      cases hta : a' with
      | nil =>
        subst hta
        refine ⟨fun data hd => ?_, rfl⟩
        have := taken_mem ht hd
        cases this
      | cons y ys =>
        subst hta
        have := taken_eq ht (by intro x hx; cases hx) (by simp)
        have := congrArg List.length this
        simp at this
    have hfn := flag_none_stays h1 h11 ho hno.1
    have : afterForeign me sess ss.sessions.length (.ended x) (udpStep ss op).1 = .ended x := by
      cases hx : (udpStep ss op).1 with
      | accepted q =>
        simp only [afterForeign]
        rw [if_neg]
        rintro rfl
        exact hfn.2 hx
      | _ => rfl
    rw [this]
    exact ⟨h4, hfn.1, hno.2, h13⟩

/-- The session ends. -/
theorem urel_close {c cs sid x ss a b r} {J : Joint} (h : URel max me you sess ⟨c, cs, .running sid (.ret x), ss, a, b, r⟩ J) (hf : JFacts J)
    (hmax : max * 4 ≤ USIZE_MAX) : URel max me you sess ⟨c, cs, .ended x, (udpStep ss (.close sid)).2, a, b, r⟩ J := by
  obtain ⟨h1, h2, h3, ⟨h4, ho, hq⟩, h5, h6, h7, h8, h9, h10⟩ := h
  simp only at h1 h2 h3 h4 ho hq h5 h6
  have hja := hf.ended x h4
  have hov : ¬ Overflow ss (.close sid) := by rintro ⟨p, b, hb, -⟩; cases hb
  have hs := srvOk_step h1 hmax (op := .close sid) trivial hov
  rw [hja] at hq
  have ha : a = [] := by
    cases a with
    | nil => rfl
    | cons y ys => have := congrArg List.length hq; simp at this
  refine ⟨hs, h2, h3, ⟨h4, ?_, ha, hja⟩, h5, h6, h7, h8, h9, h10⟩
  simp only
  have halive := hs.alive
  have hstep := udpStep_cases h1.disp (.close sid)
  generalize (udpStep ss (.close sid)).1 = out at hstep
  generalize (udpStep ss (.close sid)).2 = s' at hstep halive
  unfold OpenSession at ho
  cases hstep with
  | skip hwhy _ =>
    exfalso
    rcases hwhy with h | ⟨sid', h2 | h2, h3⟩
    · rw [h1.alive] at h; cases h
    · obtain ⟨_, _, h2⟩ := h2; cases h2
    · cases h2
      rcases h3 with h3 | ⟨se, h3, h4⟩
      · rw [h3] at ho; cases ho
      · rw [h3] at ho; cases ho; cases h4
  | closePanic _ _ _ => cases halive
  | closeOk hse _ hx =>
    rw [hse] at ho
    cases ho
    exact (disconnect_flag hx).1

theorem magic_append {q : List Message} {m : Message} (h : ∀ x ∈ q, x.magic = MAGIC) (hm : m.magic = MAGIC) : ∀ x ∈ q ++ [m], x.magic = MAGIC := by
  intro x hx
  rcases List.mem_append.1 hx with hx | hx
  · exact h x hx
  · rw [List.mem_singleton.1 hx]; exact hm

theorem side_append {ss a js ja s m} (h : SideRel me sess ss a js ja s) (hs : ∀ x, js = .ret x → False) :
    SideRel me sess ss (a ++ [wireOf m]) js (ja ++ [m]) s := by
  cases s with
  | waiting => obtain ⟨h1, h2, h3⟩ := h; exact ⟨h1, h2, by rw [← List.append_assoc, h3]; simp⟩
  | running => obtain ⟨h1, h2, h3⟩ := h; exact ⟨h1, h2, by rw [← List.append_assoc, h3]; simp⟩
  | ended x => exact absurd h.1 (hs x)

/-- A plain step of the server. -/
theorem urel_server {c cs sid p p' ss a b b' r r'} {J : Joint} (h : URel max me you sess ⟨c, cs, .running sid p, ss, a, b, r⟩ J)
    {jb' : List Message} {jr' : List FwMessage} (hb : queueOf cs.disp you ++ b' = jb'.map wireOf) (hr : r' = jr') (hm : SendsMagic p')
    (hmb : ∀ m ∈ jb', m.magic = MAGIC) :
    URel max me you sess ⟨c, cs, .running sid p', ss, a, b', r'⟩ { J with server := p', s2c := jb', reqs := jr' } := by
  obtain ⟨h1, h2, h3, ⟨h4, ho, hq⟩, h5, h6, h7, h8, h9, h10⟩ := h
  exact ⟨h1, h2, h3, ⟨rfl, ho, hq⟩, hb, hr, h7, hm, h9, hmb⟩

/-- The UDP level follows the message level. -/
theorem urel_step (hmax : max * 4 ≤ USIZE_MAX) {U U' : UdpJoint} {l : ULabel} {J : Joint} (h : URel max me you sess U J) (hf : JFacts J)
    (hs : UStep me you sess U l U') (hu : Undisturbed me you U l) : URel max me you sess U' J ∨ ∃ J', JStep J J' ∧ URel max me you sess U' J' := by
  have h0 := h
  have hlive := hf.sending
  obtain ⟨h1, h2, h3, h4, h5, h6, h7, h8, h9, h10⟩ := h
  obtain ⟨jc, js, ja, jb, jr⟩ := J
  simp only at h3 h4 h5 h6 h7 h8 h9 h10 hlive
  cases hs with
  | cConnect =>
    simp only at h3; subst h3
    exact .inr ⟨_, .cConnect, h1, h2, rfl, h4, h5, h6, SendsMagic_next h7 true, h8, h9, h10⟩
  | cRand salt hr =>
    simp only at h3; subst h3
    exact .inr ⟨_, .cRand salt hr, h1, h2, rfl, h4, h5, h6, SendsMagic_next h7 (some salt), h8, h9, h10⟩
  | cSend hser =>
    simp only at h3; subst h3
    have hmg := SendsMagic_msg h7
    have hw := (C01_serialize_layout _ hmg).1
    rw [hser] at hw
    cases hw
    exact .inr ⟨_, .cSend, h1, h2, rfl, side_append h4 (hlive _ _ rfl), h5, h6, SendsMagic_next h7 true, h8, magic_append h9 hmg, h10⟩
  | cRecv ht =>
    rcases urel_cRecv h0 hf (hu _ rfl) ht with ⟨-, h⟩ | ⟨m, -, hj, h⟩
    · exact .inl h
    · exact .inr ⟨_, hj, h⟩
  | sRand8 salt hr =>
    obtain ⟨rfl, -⟩ := h4
    exact .inr ⟨_, .sRand8 salt hr, urel_server h0 h5 h6 (SendsMagic_next h8 (some salt)) h10⟩
  | sRand32 salt hr =>
    obtain ⟨rfl, -⟩ := h4
    exact .inr ⟨_, .sRand32 salt hr, urel_server h0 h5 h6 (SendsMagic_next h8 (some salt)) h10⟩
  | sSend hser =>
    obtain ⟨rfl, -⟩ := h4
    have hmg := SendsMagic_msg h8
    have hw := (C01_serialize_layout _ hmg).1
    rw [hser] at hw
    cases hw
    exact .inr ⟨_, .sSend, urel_server h0 (by rw [← List.append_assoc, h5]; simp [wireOf]) h6 (SendsMagic_next h8 true) (magic_append h10 hmg)⟩
  | sFwConnect =>
    obtain ⟨rfl, -⟩ := h4
    exact .inr ⟨_, .sFwConnect, urel_server h0 h5 h6 (SendsMagic_next h8 true) h10⟩
  | sFwSend =>
    obtain ⟨rfl, -⟩ := h4
    simp only at h6
    exact .inr ⟨_, .sFwSend, urel_server h0 h5 (by rw [h6]) (SendsMagic_next h8 true) h10⟩
  | sFwRecv ack ha =>
    obtain ⟨rfl, -⟩ := h4
    exact .inr ⟨_, .sFwRecv ack ha, urel_server h0 h5 h6 (SendsMagic_next h8 (.msg ack)) h10⟩
  | sRecv ht =>
    rcases urel_sRecv h0 hf hmax hu.1 (hu.2 _ rfl) ht with ⟨-, h⟩ | ⟨m, -, hj, h⟩
    · exact .inl h
    · exact .inr ⟨_, hj, h⟩
  | sClose => exact .inl (urel_close h0 hf hmax)
  | other hfor ht => exact .inl (urel_other h0 hf hmax hfor ht hu.1 hu.2.1 hu.2.2)

theorem runTo_trans {U U' U'' : UdpJoint} (h : UdpRunTo me you sess U U') (h' : UdpRunTo me you sess U' U'') : UdpRunTo me you sess U U'' := by
  induction h' with
  | refl => exact h
  | step _ h1 h2 ih => exact .step ih h1 h2

theorem runTo_one {U U' : UdpJoint} {l : ULabel} (h : UStep me you sess U l U') (hu : Undisturbed me you U l) : UdpRunTo me you sess U U' :=
  .step .refl h hu

/-- There is room for the client. -/
def Room (me : SocketAddr) (U : UdpJoint) : Prop :=
  U.server = .waiting → Unconnected U.ssock me → U.ssock.disp.conn.length < U.ssock.disp.maxConn

/-- A waiting client can be accepted. -/
theorem accept_progress (hmax : max * 4 ≤ USIZE_MAX) {c cs ss a b r} {J : Joint} (h : URel max me you sess ⟨c, cs, .waiting, ss, a, b, r⟩ J) (hf : JFacts J)
    (hw : Waiting ss me) : ∃ U' sid, UdpRunTo me you sess ⟨c, cs, .waiting, ss, a, b, r⟩ U' ∧ URel max me you sess U' J ∧ U'.server = .running sid sess := by
  obtain ⟨co, hco, hacc⟩ := hw
  have hsrv : SrvOk max ss := h.srv
  have hperm := assoc_perm_cons hsrv.disp.nodup hco
  have hno : ∀ (op : UdpOp), sockOf op = none ∨ sockOf op = some .wouldBlock → ∀ p, dgramOf p op = none := by
    intro op hop p
    unfold dgramOf
    rcases hop with hop | hop <;> rw [hop]
  -- the map's order changes
  have st1 : UStep me you sess ⟨c, cs, .waiting, ss, a, b, r⟩ (.other (.reorder ((me, co) :: assocErase ss.disp.conn me))) _ :=
    .other (.reorder _) (.other (by intro data e; cases e))
  have u1 : Undisturbed me you ⟨c, cs, .waiting, ss, a, b, r⟩ (.other (.reorder ((me, co) :: assocErase ss.disp.conn me))) := by
    refine ⟨hperm.symm, ?_, ?_⟩
    · rintro ⟨p, x, hx, -⟩; rw [hno _ (.inl rfl)] at hx; cases hx
    · intro hx; rw [hno _ (.inl rfl)] at hx; cases hx
  have r1 := urel_other h hf hmax (.reorder ((me, co) :: assocErase ss.disp.conn me)) (a' := a) (.other (by intro data e; cases e)) u1.1 u1.2.1 u1.2.2
  have e1 : udpStep ss (.reorder ((me, co) :: assocErase ss.disp.conn me)) =
      (.none, { ss with disp := { ss.disp with conn := (me, co) :: assocErase ss.disp.conn me } }) := by
    unfold udpStep; rw [hsrv.alive]; rfl
  simp only [e1, afterForeign] at st1 r1
  generalize hss' : ({ ss with disp := { ss.disp with conn := (me, co) :: assocErase ss.disp.conn me } } : UdpSrv) = ss' at st1 r1
  -- the first waiting one is accepted
  have hconn : ss'.disp.conn = (me, co) :: assocErase ss.disp.conn me := by rw [← hss']
  have hsrv' : SrvOk max ss' := r1.srv
  have hpeer : co.peerAddr = me := (hsrv.disp.entry _ (assocGet_mem hco)).1
  have e2 : (udpStep ss' (.accept .readable .wouldBlock)).1 = .accepted me := by
    unfold udpStep
    rw [hsrv'.alive]
    simp only [wakeAccept, UdpDisp.tryAccept, UdpDisp.tryRecv, Bool.false_eq_true, if_false, reduceCtorEq, hconn, acceptFirst, hacc, Bool.not_false,
      if_true, hpeer]
  have u2 : Undisturbed me you ⟨c, cs, .waiting, ss', a, b, r⟩ (.other (.accept .readable .wouldBlock)) := by
    refine ⟨trivial, ?_, ?_⟩
    · rintro ⟨p, x, hx, -⟩; rw [hno _ (.inr rfl)] at hx; cases hx
    · intro hx; rw [hno _ (.inr rfl)] at hx; cases hx
  have st2 : UStep me you sess ⟨c, cs, .waiting, ss', a, b, r⟩ (.other (.accept .readable .wouldBlock)) _ :=
    .other (a' := a) (.accept _ _) (.other (by intro data e; cases e))
  have r2 := urel_other r1 hf hmax (.accept .readable .wouldBlock) (a' := a) (.other (by intro data e; cases e)) u2.1 u2.2.1 u2.2.2
  refine ⟨_, ss'.sessions.length, .step (.step .refl st1 u1) st2 u2, r2, ?_⟩
  simp only [e2, afterForeign, if_true]

/-- A client that has sent something can get its session. -/
theorem running_progress (hmax : max * 4 ≤ USIZE_MAX) {U : UdpJoint} {J : Joint} (h : URel max me you sess U J) (hf : JFacts J)
    (hne : J.c2s ≠ []) (hroom : Room me U) (hw : U.server = .waiting) :
    ∃ U' sid, UdpRunTo me you sess U U' ∧ URel max me you sess U' J ∧ U'.server = .running sid sess := by
  obtain ⟨c, cs, s, ss, a, b, r⟩ := U
  simp only at hw
  subst hw
  obtain ⟨-, hno, hq⟩ := h.side
  have hsrv : SrvOk max ss := h.srv
  simp only at hno hq
  cases hfl : flag ss.disp me with
  | some x =>
    cases x with
    | true => obtain ⟨sid, hsid⟩ := hsrv.owned me hfl; exact absurd hsid (hno sid)
    | false => exact accept_progress hmax h hf (flag_waiting.2 hfl)
  | none =>
    have hun : Unconnected ss me := flag_unconnected.2 hfl
    have hq0 : queueOf ss.disp me = [] := by unfold queueOf; rw [hun]
    rw [hq0, List.nil_append] at hq
    obtain ⟨m, ja, hm⟩ := List.exists_cons_of_ne_nil hne
    have h56 := (msg_codec m (h.c2sMagic m (by rw [hm]; simp))).1
    rw [hm, List.map_cons] at hq
    have hr := hroom rfl hun
    simp only at hr
    have hdg : ∀ {p x}, dgramOf p (.accept .readable (.dgram me (wireOf m))) = some x → p = me := by
      intro p x hx
      obtain ⟨data, h2, -, -⟩ := dgramOf_inv hx
      injection h2 with h2
      injection h2 with h2
      exact h2.symm
    have hfor : Foreign ss .waiting (.accept .readable (.dgram me (wireOf m))) := .accept _ _
    have ht : Taken me (UdpOp.reads (.accept .readable (.dgram me (wireOf m)))) a (ja.map wireOf) := by
      rw [hq]; exact .one (a := []) rfl
    have u1 : Undisturbed me you ⟨c, cs, .waiting, ss, a, b, r⟩ (.other (.accept .readable (.dgram me (wireOf m)))) := by
      refine ⟨trivial, ?_, fun _ _ => hr⟩
      rintro ⟨p, x, hx, hfull⟩
      have := hdg hx
      subst this
      obtain ⟨c, hc, -⟩ := hfull
      simp only at hc
      rw [hun] at hc
      cases hc
    have st1 := UStep.other (you := you) (sess := sess) (c := c) (cs := cs) (b := b) (r := r) hfor ht
    have r1 := urel_other h hf hmax hfor ht u1.1 u1.2.1 u1.2.2
    have halive : (udpStep ss (.accept .readable (.dgram me (wireOf m)))).2.crashed = false := r1.srv.alive
    rcases new_peer_waits (op := .accept .readable (.dgram me (wireOf m))) hsrv.disp hsrv.alive trivial
      (dgramOf_of_accept (Nat.le_of_eq h56.symm)) hun (by rw [← hsrv.disp.max_eq]; exact hr) halive with hx | ⟨hx, -⟩
    · refine ⟨_, ss.sessions.length, .step .refl st1 u1, r1, ?_⟩
      simp only [hx, afterForeign, if_true]
    · by_cases hacc : (udpStep ss (.accept .readable (.dgram me (wireOf m)))).1 = .accepted me
      · refine ⟨_, ss.sessions.length, .step .refl st1 u1, r1, ?_⟩
        simp only [hacc, afterForeign, if_true]
      · have : afterForeign me sess ss.sessions.length .waiting (udpStep ss (.accept .readable (.dgram me (wireOf m)))).1 = .waiting := by
          cases hx : (udpStep ss (.accept .readable (.dgram me (wireOf m)))).1 with
          | accepted p =>
            simp only [afterForeign]
            rw [if_neg]
            rintro rfl
            exact hacc hx
          | _ => rfl
        rw [this] at st1 r1
        obtain ⟨U', sid, h1, h2, h3⟩ := accept_progress hmax r1 hf hx
        exact ⟨U', sid, runTo_trans (.step .refl st1 u1) h1, h2, h3⟩

/-- What a receive round should read. -/
def pick (p : SocketAddr) : List Bytes → SockIn
  | [] => .wouldBlock
  | x :: _ => .dgram p x

theorem pick_taken (p : SocketAddr) (a : List Bytes) : Taken p (some (pick p a)) a a.tail := by
  cases a with
  | nil => exact .other (by intro data e; cases e)
  | cons x xs => exact .one (a := []) rfl

theorem pick_dgram {p : SocketAddr} {a : List Bytes} (h : ∀ x ∈ a, x.length = 56) (sid : Nat) (w : Wake) :
    (dgramOf p (.recv sid w (pick p a))).toList = a.take 1 := by
  cases a with
  | nil => rfl
  | cons x xs =>
    have := h x (by simp)
    rw [pick, dgramOf_of_recv (by omega), List.take_of_length_le (by omega)]
    rfl

/-- A running session receives what has been sent. -/
theorem sRecv_progress (hmax : max * 4 ≤ USIZE_MAX) {U : UdpJoint} {J : Joint} (h : URel max me you sess U J) (hf : JFacts J) {sid : Nat}
    {k : RecvOut → Prog Unit} (hs : U.server = .running sid (.act .recv k)) {m : Message} (hm : J.c2s = [m]) :
    ∃ U', UdpRunTo me you sess U U' ∧ JStep J { J with server := k (.msg m), c2s := [] } ∧
      URel max me you sess U' { J with server := k (.msg m), c2s := [] } ∧ U'.server ≠ .waiting := by
  obtain ⟨c, cs, s, ss, a, b, r⟩ := U
  simp only at hs
  subst hs
  obtain ⟨-, ho, hq⟩ := h.side
  have hsrv : SrvOk max ss := h.srv
  simp only at ho hq
  have h56 := wires_56 h.c2sMagic
  have hq2 := hq
  rw [hm, List.map_cons, List.map_nil] at hq2
  have ha56 : ∀ x ∈ a, x.length = 56 := fun x hx => h56 x (by rw [← hq]; exact List.mem_append_right _ hx)
  have hlen := congrArg List.length hq2
  simp only [List.length_append, List.length_cons, List.length_nil] at hlen
  have hfl := hsrv.excl.connected sid me ho
  have hfull : ¬ QueueFull ss me := by
    rintro ⟨co, h1, h2⟩
    simp only [queueOf, h1, List.length_map] at hlen
    omega
  have hrej : ¬ Rejected ss (pick me a) := by
    cases a with
    | nil => exact id
    | cons x xs =>
      rintro (h1 | h1 | ⟨h1, -⟩)
      · have := ha56 x (by simp); omega
      · exact hfull h1
      · rw [flag_unconnected.1 h1] at hfl; cases hfl
  have hov : ¬ Overflow ss (.recv sid .readable (pick me a)) := by
    rintro ⟨p, x, hx, hf⟩
    obtain ⟨data, h2, -, -⟩ := dgramOf_inv hx
    injection h2 with h2
    cases a with
    | nil => cases h2
    | cons y ys => injection h2 with h2; subst h2; exact hfull hf
  have ht := pick_taken me a
  have hdel := delivers hsrv.disp ho .readable hrej (srvOk_step (op := .recv sid .readable (pick me a)) hsrv hmax trivial hov).alive hsrv.alive (b := wireOf m) (rest := [])
    (by rw [pick_dgram ha56, List.take_of_length_le (by omega)]; exact hq2)
  obtain ⟨x, -, hout, -⟩ := hdel
  have st := UStep.sRecv (me := me) (you := you) (sess := sess) (c := c) (cs := cs) (sid := sid) (k := k) (ss := ss) (b := b) (r := r) (w := .readable) ht
  rcases urel_sRecv h hf hmax hov hrej ht (w := .readable) with ⟨h1, -⟩ | ⟨m', hm', hj, hu⟩
  · rw [hout] at h1; cases h1
  · rw [hm] at hm'
    cases hm'
    refine ⟨_, runTo_one st ⟨hov, ?_⟩, hj, hu, by simp⟩
    intro i hi
    injection hi with hi
    rw [← hi]; exact hrej

/-- The client receives what has been sent. -/
theorem cRecv_progress {U : UdpJoint} {J : Joint} (h : URel max me you sess U J) (hf : JFacts J) {k : RecvOut → Prog Unit}
    (hc : U.client = .act .recv k) {m : Message} (hm : J.s2c = [m]) :
    ∃ U', UdpRunTo me you sess U U' ∧ JStep J { J with client := k (.msg m), s2c := [] } ∧
      URel max me you sess U' { J with client := k (.msg m), s2c := [] } ∧ U'.server = U.server ∧ U'.ssock = U.ssock := by
  obtain ⟨c, cs, s, ss, a, b, r⟩ := U
  simp only at hc
  subst hc
  have hcli : CliOk you cs := h.cli
  have hq := h.s2c
  simp only at hq
  have h56 := wires_56 h.s2cMagic
  have hq2 := hq
  rw [hm, List.map_cons, List.map_nil] at hq2
  have hb56 : ∀ x ∈ b, x.length = 56 := fun x hx => h56 x (by rw [← hq]; exact List.mem_append_right _ hx)
  have hlen := congrArg List.length hq2
  simp only [List.length_append, List.length_cons, List.length_nil] at hlen
  have hi : pick you b = .wouldBlock ∨ ∃ data, pick you b = .dgram you data ∧ data.length = 56 := by
    cases b with
    | nil => exact .inl rfl
    | cons x xs => exact .inr ⟨x, rfl, hb56 x (by simp)⟩
  have ht := pick_taken you b
  have hdel := delivers hcli.disp hcli.sess .readable (cli_not_rejected hcli hi (by omega)) (cliOk_step hcli hi (by omega) .readable).alive hcli.alive
    (b := wireOf m) (rest := []) (by rw [pick_dgram hb56, List.take_of_length_le (by omega)]; exact hq2)
  obtain ⟨x, -, hout, -⟩ := hdel
  have hi' : pick you b = .wouldBlock ∨ ∃ data, pick you b = .dgram you data := hi.imp id (fun ⟨d, h, _⟩ => ⟨d, h⟩)
  have st := UStep.cRecv (me := me) (you := you) (sess := sess) (k := k) (cs := cs) (s := s) (ss := ss) (a := a) (r := r) (w := .readable) ht
  rcases urel_cRecv h hf hi' ht (w := .readable) with ⟨h1, -⟩ | ⟨m', hm', hj, hu⟩
  · rw [hout] at h1; cases h1
  · rw [hm] at hm'
    cases hm'
    refine ⟨_, runTo_one st ?_, hj, hu, rfl, rfl⟩
    intro i hx
    injection hx with hx
    rw [← hx]; exact hi'

/-- If the message level can go on, so can the UDP level. -/
theorem urel_progress (hmax : max * 4 ≤ USIZE_MAX) (hsess : ∃ k, sess = .act .recv k) {U : UdpJoint} {J J' : Joint} (h : URel max me you sess U J) (hf : JFacts J)
    (hj : JStep J J') (hroom : Room me U) : ∃ U' J'', UdpRunTo me you sess U U' ∧ JStep J J'' ∧ URel max me you sess U' J'' ∧ Room me U' := by
  obtain ⟨k0, hk0⟩ := hsess
  have h0 := h
  obtain ⟨h1, h2, h3, h4, h5, h6, h7, h8, h9, h10⟩ := h
  have hrun : ∀ {a : Act} {k}, J.server = .act a k → a ≠ .recv → ∃ sid, U.server = .running sid (.act a k) := by
    intro a k he hne
    cases hs : U.server with
    | waiting => rw [hs] at h4; rw [h4.1, hk0] at he; injection he with he; exact absurd he.symm hne
    | running sid p => rw [hs] at h4; rw [h4.1] at he; exact ⟨sid, by rw [he]⟩
    | ended x => rw [hs] at h4; rw [h4.1] at he; cases he
  obtain ⟨c, cs, s, ss, a, b, r⟩ := U
  simp only at h3 hrun h6
  have plain : ∀ {U' : UdpJoint} {J' : Joint}, UStep me you sess ⟨c, cs, s, ss, a, b, r⟩ .plain U' → JStep J J' →
      URel max me you sess U' J' → (U'.server = .waiting → U'.ssock = ss ∧ s = .waiting) → ∃ U' J'', UdpRunTo me you sess ⟨c, cs, s, ss, a, b, r⟩ U' ∧ JStep J J'' ∧ URel max me you sess U' J'' ∧ Room me U' := by
    intro U' J' st hj hu hr
    refine ⟨U', J', runTo_one st trivial, hj, hu, ?_⟩
    intro hw
    obtain ⟨e1, e2⟩ := hr hw
    rw [e1]
    exact hroom e2
  obtain ⟨jc, js, ja, jb, jr⟩ := J
  simp only at h3 h6 h7 h8 hrun
  cases hj with
  | cConnect =>
    subst h3
    exact plain .cConnect .cConnect ⟨h1, h2, rfl, h4, h5, h6, SendsMagic_next h7 true, h8, h9, h10⟩ (fun hw => ⟨rfl, hw⟩)
  | cRand salt hr =>
    subst h3
    exact plain (.cRand salt hr) (.cRand salt hr) ⟨h1, h2, rfl, h4, h5, h6, SendsMagic_next h7 (some salt), h8, h9, h10⟩ (fun hw => ⟨rfl, hw⟩)
  | cSend =>
    subst h3
    have hmg := SendsMagic_msg h7
    exact plain (.cSend (C01_serialize_layout _ hmg).1) .cSend
      ⟨h1, h2, rfl, side_append h4 (hf.sending _ _ rfl), h5, h6, SendsMagic_next h7 true, h8, magic_append h9 hmg, h10⟩ (fun hw => ⟨rfl, hw⟩)
  | @cRecv m k _ _ jb' _ =>
    subst h3
    have hlen := hf.s2c
    simp only [List.length_cons] at hlen
    have : jb' = [] := List.eq_nil_of_length_eq_zero (by omega)
    subst this
    obtain ⟨U', e1, e2, e3, e4, e5⟩ := cRecv_progress h0 hf rfl rfl
    refine ⟨U', _, e1, e2, e3, ?_⟩
    intro hw
    rw [e5]
    exact hroom (e4.symm.trans hw)
  | sRand8 salt hr =>
    obtain ⟨sid, rfl⟩ := hrun rfl (by simp)
    exact plain (.sRand8 salt hr) (.sRand8 salt hr) (urel_server h0 h5 h6 (SendsMagic_next h8 (some salt)) h10) (by simp)
  | sRand32 salt hr =>
    obtain ⟨sid, rfl⟩ := hrun rfl (by simp)
    exact plain (.sRand32 salt hr) (.sRand32 salt hr) (urel_server h0 h5 h6 (SendsMagic_next h8 (some salt)) h10) (by simp)
  | sSend =>
    obtain ⟨sid, rfl⟩ := hrun rfl (by simp)
    have hmg := SendsMagic_msg h8
    exact plain (.sSend (C01_serialize_layout _ hmg).1) .sSend
      (urel_server h0 (by rw [← List.append_assoc, h5]; simp [wireOf]) h6 (SendsMagic_next h8 true) (magic_append h10 hmg)) (by simp)
  | sFwConnect =>
    obtain ⟨sid, rfl⟩ := hrun rfl (by simp)
    exact plain .sFwConnect .sFwConnect (urel_server h0 h5 h6 (SendsMagic_next h8 true) h10) (by simp)
  | sFwSend =>
    obtain ⟨sid, rfl⟩ := hrun rfl (by simp)
    exact plain .sFwSend .sFwSend (urel_server h0 h5 (by rw [h6]) (SendsMagic_next h8 true) h10) (by simp)
  | sFwRecv ack ha =>
    obtain ⟨sid, rfl⟩ := hrun rfl (by simp)
    exact plain (.sFwRecv ack ha) (.sFwRecv ack ha) (urel_server h0 h5 h6 (SendsMagic_next h8 (.msg ack)) h10) (by simp)
  | @sRecv _ m k ja' _ _ =>
    have hlen := hf.c2s
    simp only [List.length_cons] at hlen
    have : ja' = [] := List.eq_nil_of_length_eq_zero (by omega)
    subst this
    cases s with
    | ended x => have := h4.2.2.2; cases this
    | running sid p =>
      have := h4.1
      simp only at this
      subst this
      obtain ⟨U', e1, e2, e3, e4⟩ := sRecv_progress hmax h0 hf rfl rfl
      exact ⟨U', _, e1, e2, e3, fun hw => absurd hw e4⟩
    | waiting =>
      have := h4.1
      simp only at this
      obtain ⟨U1, sid, e1, e2, e3⟩ := running_progress hmax h0 hf (by simp) hroom rfl
      rw [← this] at e3
      obtain ⟨U', f1, f2, f3, f4⟩ := sRecv_progress hmax e2 hf e3 rfl
      exact ⟨U', _, runTo_trans e1 f1, f2, f3, fun hw => absurd hw f4⟩

/-- What it means that one of the sides has ended. -/
theorem phase_ends {mac : MacFn} {peer : IpAddr} {u : UserId} {r : ResourceId} {key : Key} {res : Resource} {pt : PortType} {n : Nat} {J : Joint}
    (hp : Phase mac peer u r key res pt n J) :
    (∀ x, J.client = .ret x → x = .ok () ∧ J.server = .ret (.ok ()) ∧ J.reqs = [FwMessage.newOpen peer pt res.port]) ∧
      (∀ x, J.server = .ret x → x = .ok () ∧ J.reqs = [FwMessage.newOpen peer pt res.port]) ∧
      (J.reqs = [] ∨ J.reqs = [FwMessage.newOpen peer pt res.port]) := by
  unfold Phase at hp
  have e : ∀ {P : Prop} {p : Prog Unit} {a : Act}, (∃ k, p = .act a k) → ∀ {x}, p = .ret x → P := by
    intro P p a ⟨k, hk⟩ x hx
    rw [hk] at hx; cases hx
  split at hp
  all_goals first
    | exact hp.elim
    | (obtain ⟨⟨k1, h1, -⟩, ⟨k, h2, -⟩, h3, h4, h5⟩ := hp
       first
         | exact ⟨fun _ h => e ⟨_, h1⟩ h, fun _ h => e ⟨_, h2⟩ h, .inl h5⟩
         | exact ⟨fun _ h => e ⟨_, h1⟩ h, fun _ h => e ⟨_, h2⟩ h, .inr h5⟩)
    | (obtain ⟨_, ⟨k1, h1, -⟩, ⟨k, h2, -⟩, h3, h4, h5⟩ := hp
       first
         | exact ⟨fun _ h => e ⟨_, h1⟩ h, fun _ h => e ⟨_, h2⟩ h, .inl h5⟩
         | exact ⟨fun _ h => e ⟨_, h1⟩ h, fun _ h => e ⟨_, h2⟩ h, .inr h5⟩)
    | (obtain ⟨_, _, ⟨k1, h1, -⟩, ⟨k, h2, -⟩, h3, h4, h5⟩ := hp
       exact ⟨fun _ h => e ⟨_, h1⟩ h, fun _ h => e ⟨_, h2⟩ h, .inl h5⟩)
    | (obtain ⟨_, ⟨k1, h1, -⟩, h2, h3, h4, h5⟩ := hp
       refine ⟨fun _ h => e ⟨_, h1⟩ h, fun x h => ?_, .inr h5⟩
       rw [h2] at h
       injection h with h
       exact ⟨h.symm, h5⟩)
    | (obtain ⟨h1, h2, h3, h4, h5⟩ := hp
       refine ⟨fun x h => ?_, fun x h => ?_, .inr h5⟩
       · rw [h1] at h
         injection h with h
         exact ⟨h.symm, h2, h5⟩
       · rw [h2] at h
         injection h with h
         exact ⟨h.symm, h5⟩)

/-- The start. -/
theorem urel_init (mac : MacFn) (conf : Config) (u : UserId) (r : ResourceId) (key : Key) {ss : UdpSrv} (hs : SrvOk max ss) (hme : Unconnected ss me) :
    URel max me you (session mac conf me.ip) (UdpJoint.init mac you ss u r key) (Joint.init mac conf me.ip u r key) := by
  refine ⟨hs, cliOk_start you, rfl, ⟨rfl, ?_, ?_⟩, rfl, rfl, SendsMagic_client .., SendsMagic_session .., ?_, ?_⟩
  · intro sid ho
    have := hs.excl.connected sid me ho
    rw [flag_unconnected.1 hme] at this
    cases this
  · unfold queueOf
    simp only [UdpJoint.init, Joint.init]
    rw [hme]
    rfl
  · intro m hm; cases hm
  · intro m hm; cases hm

end

section
variable {mac : MacFn} {conf : Config} {max : Nat} {me you : SocketAddr} {ops : List UdpOp} {u : UserId} {r : ResourceId} {key : Key} {res : Resource}

theorem honest_phase (h : UdpHonest conf max me ops u r key res) : ∃ pt, opensTcp pt = res.tcp ∧ opensUdp pt = res.udp ∧
    Phase mac me.ip u r key res pt 0 (Joint.init mac conf me.ip u r key) := by
  obtain ⟨pt, hpt⟩ : ∃ pt, res.portType = .ok pt := by
    have := h.someProto
    unfold Resource.portType
    cases h1 : res.tcp <;> cases h2 : res.udp <;> simp_all
  have hu : res.containsUser u = true := by
    unfold Resource.containsUser
    rcases h.granted.allowed with h | h
    · simp [h]
    · simp [h]
  obtain ⟨p1, p2⟩ := portType_spec hpt
  exact ⟨pt, p1, p2, client_CP0 .., server_SP0 mac conf me.ip u r key res pt h.key h.granted.configured hu h.granted.notControl hpt, rfl, rfl, rfl⟩

/-- Every undisturbed run follows the messages' exchange. -/
theorem honest_run (h : UdpHonest conf max me ops u r key res) {pt : PortType}
    (hp : Phase mac me.ip u r key res pt 0 (Joint.init mac conf me.ip u r key)) {U : UdpJoint}
    (hr : UdpRunTo me you (session mac conf me.ip) (UdpJoint.init mac you (udpRun (UdpSrv.new max) ops).2 u r key) U) :
    ∃ n J, Phase mac me.ip u r key res pt n J ∧ URel max me you (session mac conf me.ip) U J := by
  induction hr with
  | refl => exact ⟨0, _, hp, urel_init mac conf u r key (srvOk_run (Nat.le_sub_one_of_lt h.size) ops _ (srvOk_new max) h.order h.noOverflow) h.fresh⟩
  | step _ hs hu ih =>
    obtain ⟨n, J, h1, h2⟩ := ih
    rcases urel_step (Nat.le_sub_one_of_lt h.size) h2 (phase_facts h1) hs hu with h3 | ⟨J', h3, h4⟩
    · exact ⟨n, J, h1, h3⟩
    · exact ⟨n + 1, J', phase_step _ _ _ _ _ _ _ h1 h3, h4⟩

/-- **C74** (safety). A holder of the key asks a server that has been serving others over UDP, and still is: sessions begin and end, datagrams of
anybody come in, in any order and read by any task. As long as no queue overflows, no bad datagram hits the client's own session and there is room for the client,
nothing goes wrong: neither side's socket code panics, neither side ends with anything but success, and the firewall daemon is asked at most once, for exactly
the client's address and the resource. When the client reports success the request has been made. -/
theorem C74_never_fails (h : UdpHonest conf max me ops u r key res) (U : UdpJoint)
    (hr : UdpRunTo me you (session mac conf me.ip) (UdpJoint.init mac you (udpRun (UdpSrv.new max) ops).2 u r key) U) :
    U.ssock.crashed = false ∧ U.csock.crashed = false ∧
      ∃ pt, opensTcp pt = res.tcp ∧ opensUdp pt = res.udp ∧
        (U.reqs = [] ∨ U.reqs = [FwMessage.newOpen me.ip pt res.port]) ∧
        (∀ x, U.client = .ret x → x = .ok () ∧ U.reqs = [FwMessage.newOpen me.ip pt res.port]) ∧
        (∀ x sid, U.server = .running sid (.ret x) ∨ U.server = .ended x → x = .ok () ∧ U.reqs = [FwMessage.newOpen me.ip pt res.port]) := by
  obtain ⟨pt, p1, p2, hp⟩ := honest_phase h
  obtain ⟨n, J, h1, h2⟩ := honest_run h hp hr
  obtain ⟨e1, e2, e3⟩ := phase_ends h1
  refine ⟨h2.srv.alive, h2.cli.alive, pt, p1, p2, ?_, ?_, ?_⟩
  · rw [h2.reqs]; exact e3
  · intro x hx
    rw [h2.client] at hx
    rw [h2.reqs]
    exact ⟨(e1 x hx).1, (e1 x hx).2.2⟩
  · intro x sid hx
    rw [h2.reqs]
    apply e2 x
    have := h2.side
    rcases hx with hx | hx
    · rw [hx] at this; exact this.1
    · rw [hx] at this; exact this.1

/-- **C74** (liveness). However such a run has gone so far, both sides can still succeed: there is an undisturbed continuation in which the client reports success, the
session ends well, nothing is left in transit, and the firewall daemon has got the one request. -/
theorem C74_can_finish (h : UdpHonest conf max me ops u r key res) (U : UdpJoint)
    (hr : UdpRunTo me you (session mac conf me.ip) (UdpJoint.init mac you (udpRun (UdpSrv.new max) ops).2 u r key) U)
    (hroom : U.server = .waiting → Unconnected U.ssock me → U.ssock.disp.conn.length < U.ssock.disp.maxConn) :
    ∃ U', UdpRunTo me you (session mac conf me.ip) U U' ∧ UdpSucceeded U' ∧
      ∃ pt, opensTcp pt = res.tcp ∧ opensUdp pt = res.udp ∧ U'.reqs = [FwMessage.newOpen me.ip pt res.port] := by
  obtain ⟨pt, p1, p2, hp⟩ := honest_phase h
  have hsess : ∃ k, session mac conf me.ip = .act .recv k := by
    obtain ⟨-, ⟨k, hk, -⟩, -⟩ := hp
    exact ⟨k, hk⟩
  obtain ⟨n, J, h1, h2⟩ := honest_run h hp hr
  have main : ∀ (j n : Nat) (U : UdpJoint) (J : Joint), n + j = 17 → Phase mac me.ip u r key res pt n J → URel max me you (session mac conf me.ip) U J →
      Room me U → ∃ U', UdpRunTo me you (session mac conf me.ip) U U' ∧ UdpSucceeded U' ∧ U'.reqs = [FwMessage.newOpen me.ip pt res.port] := by
    intro j
    induction j with
    | zero =>
      intro n U J hn h1 h2 _
      have : n = 17 := by omega
      subst this
      obtain ⟨f1, f2, f3, f4, f5⟩ := h1
      have g1 := h2.client
      have g2 := h2.side
      have g3 := h2.s2c
      have g4 := h2.reqs
      rw [f1] at g1
      rw [f4] at g3
      rw [f5] at g4
      have g3' := (List.append_eq_nil_iff.1 g3).2
      obtain ⟨c, cs, s, ss, a, b, rq⟩ := U
      simp only at g1 g3' g4 g2
      cases s with
      | waiting =>
        obtain ⟨k, hk⟩ := hsess
        have := g2.1
        rw [f2, hk] at this
        cases this
      | running sid p =>
        have e1 := g2.1
        have e2 := g2.2.2
        rw [f2] at e1
        rw [f3] at e2
        have e2 := (List.append_eq_nil_iff.1 e2).2
        subst e1
        refine ⟨_, runTo_one .sClose ⟨?_, ?_⟩, ⟨g1, rfl, e2, g3'⟩, g4⟩
        · rintro ⟨p, x, hx, -⟩
          unfold dgramOf at hx
          cases hx
        · intro i hi; cases hi
      | ended x =>
        have e1 := g2.1
        rw [f2] at e1
        injection e1 with e1
        subst e1
        exact ⟨_, .refl, ⟨g1, rfl, g2.2.2.1, g3'⟩, g4⟩
    | succ j ih =>
      intro n U J hn h1 h2 hroom
      obtain ⟨J', hj⟩ := phase_progress mac me.ip u r key res pt h1 (by omega) ⟨goodSalt, by decide +kernel⟩ ⟨goodNonce, by decide +kernel⟩ ⟨FwMessage.newAck, rfl⟩
      obtain ⟨U', J'', k1, k2, k3, k4⟩ := urel_progress (Nat.le_sub_one_of_lt h.size) hsess h2 (phase_facts h1) hj hroom
      obtain ⟨U'', l1, l2⟩ := ih (n + 1) U' J'' (by omega) (phase_step _ _ _ _ _ _ _ h1 k2) k3 k4
      exact ⟨U'', runTo_trans k1 l1, l2⟩
  obtain ⟨U', k1, k2, k3⟩ := main (17 - n) n U J (by have := phase_le mac me.ip u r key res pt h1; omega) h1 h2 hroom
  exact ⟨U', k1, k2, pt, p1, p2, k3⟩

end

/-- A server that has served others and, before, the client itself; the client comes back. -/
theorem exHonest : UdpHonest exampleConf 8 exPeer exHistory ⟨0xA423DDA7⟩ ⟨0xBC5D8077⟩ (Arr.replicate 32 7)
    { port := 22, tcp := true, udp := false, users := [] } := by
  refine ⟨by decide +kernel, ⟨by decide +kernel, by decide +kernel, by decide +kernel⟩, by decide +kernel, by decide +kernel, exHistory_legal, ?_, ?fresh⟩
  case fresh => show assocGet _ _ = none; decide +kernel
  have hq : ∀ s op, (∀ e ∈ s.disp.conn, e.2.rxQueue.length ≠ 4) → ¬ Overflow s op := by
    rintro s op h ⟨p, b, _, c, hc, hl⟩
    exact h _ (assocGet_mem hc) hl
  exact ⟨hq _ _ (by decide +kernel), hq _ _ (by decide +kernel), hq _ _ (by decide +kernel), hq _ _ (by decide +kernel),
    hq _ _ (by decide +kernel), hq _ _ (by decide +kernel), hq _ _ (by decide +kernel), trivial⟩

/-- The other host's session still runs and a third host's datagram comes in; the exchange can still be finished. -/
example (mac : MacFn) : ∃ U U', UdpRunTo exPeer exPeer2 (session mac exampleConf exPeer.ip)
      (UdpJoint.init mac exPeer2 (udpRun (UdpSrv.new 8) exHistory).2 ⟨0xA423DDA7⟩ ⟨0xBC5D8077⟩ (Arr.replicate 32 7)) U ∧
    U.ssock.disp.conn.map (·.1) = [exPeer3, exPeer2] ∧
    UdpRunTo exPeer exPeer2 (session mac exampleConf exPeer.ip) U U' ∧ UdpSucceeded U' := by
  have hq : ∀ s op, (∀ e ∈ s.disp.conn, e.2.rxQueue.length ≠ 4) → ¬ Overflow s op := by
    rintro s op h ⟨p, b, _, c, hc, hl⟩
    exact h _ (assocGet_mem hc) hl
  have h4 : ∀ e ∈ (udpRun (UdpSrv.new 8) exHistory).2.disp.conn, e.2.rxQueue.length ≠ 4 := by decide +kernel
  have hroom : (udpRun (UdpSrv.new 8) exHistory).2.disp.conn.length < (udpRun (UdpSrv.new 8) exHistory).2.disp.maxConn := by decide +kernel
  have hroom2 : (udpStep (udpRun (UdpSrv.new 8) exHistory).2 (.recv 1 .readable (.dgram exPeer3 (exData 9)))).2.disp.conn.length <
      (udpStep (udpRun (UdpSrv.new 8) exHistory).2 (.recv 1 .readable (.dgram exPeer3 (exData 9)))).2.disp.maxConn := by decide +kernel
  have hc : (udpStep (udpRun (UdpSrv.new 8) exHistory).2 (.recv 1 .readable (.dgram exPeer3 (exData 9)))).2.disp.conn.map (·.1) = [exPeer3, exPeer2] := by
    decide +kernel
  have st : UStep exPeer exPeer2 (session mac exampleConf exPeer.ip)
      (UdpJoint.init mac exPeer2 (udpRun (UdpSrv.new 8) exHistory).2 ⟨0xA423DDA7⟩ ⟨0xBC5D8077⟩ (Arr.replicate 32 7))
      (.other (.recv 1 .readable (.dgram exPeer3 (exData 9)))) _ :=
    .other (.recv 1 _ _ (by intro p h; cases h) ⟨exPeer2, by decide +kernel⟩) (.other (by intro d h; injection h with h; injection h with h1 h2; exact absurd h1 (by decide +kernel)))
  have run := runTo_one st ⟨trivial, hq _ _ h4, fun _ _ => hroom⟩
  obtain ⟨U', h1, h2, -⟩ := C74_can_finish exHonest _ run (fun _ _ => hroom2)
  exact ⟨_, U', run, hc, h1, h2⟩

end Letmein.Props
