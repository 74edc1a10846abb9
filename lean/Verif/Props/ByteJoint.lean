import Verif.Lemmas.ByteJoint

/-!
# An honest exchange over a byte stream (C73)
-/

namespace Letmein.Props
open Letmein Prog Spec

/-- The byte level state `B` corresponds to the message level state `J`. -/
structure Rel (B : ByteJoint) (J : Joint) : Prop where
  client : B.client.prog = J.client
  server : B.server.prog = J.server
  reqs : B.reqs = J.reqs
  cOk : IoOk B.client
  sOk : IoOk B.server
  cMagic : SendsMagic J.client
  sMagic : SendsMagic J.server
  c2sMagic : ∀ m ∈ J.c2s, m.magic = MAGIC
  s2cMagic : ∀ m ∈ J.s2c, m.magic = MAGIC
  c2s : rxPart B.server.io ++ B.c2s = J.c2s.flatMap wireOf ++ txPart B.client.io
  s2c : rxPart B.client.io ++ B.s2c = J.s2c.flatMap wireOf ++ txPart B.server.io

/-- Steps taken for the messages being sent or received. -/
def byteCount (B : ByteJoint) : Nat := ioCount B.client.io + ioCount B.server.io

/-- The message level is not stuck. -/
def Live (J : Joint) : Prop := (∃ J', JStep J J') ∨ (J.client = .ret (.ok ()) ∧ J.server = .ret (.ok ()))

theorem rel_step {B B' : ByteJoint} {J : Joint} (h : Rel B J) (hl : Live J) (hs : BStep B B') :
    (Rel B' J ∧ byteCount B + 1 ≤ byteCount B') ∨ ∃ J', JStep J J' ∧ Rel B' J' ∧ byteCount B ≤ 56 + byteCount B' := by
  obtain ⟨jc, js, ja, jb, jr⟩ := J
  obtain ⟨h1, h2, h3, h4, h5, h6, h7, h8, h9, h10, h11⟩ := h
  simp only at h1 h2 h3 h6 h7 h8 h9 h10 h11
  have c1 := ioCount_le h4
  have c2 := ioCount_le h5
  cases hs with
  | cConnect =>
    simp only at h1 h2 h3; subst h1; subst h2; subst h3
    exact .inr ⟨_, .cConnect, ⟨rfl, rfl, rfl, trivial, h5, SendsMagic_next h6 true, h7, h8, h9, h10, h11⟩, by simp [byteCount, ioCount]⟩
  | cRand salt hr =>
    simp only at h1 h2 h3; subst h1; subst h2; subst h3
    exact .inr ⟨_, .cRand salt hr, ⟨rfl, rfl, rfl, trivial, h5, SendsMagic_next h6 (some salt), h7, h8, h9, h10, h11⟩, by simp [byteCount, ioCount]⟩
  | sRand8 salt hr =>
    simp only at h1 h2 h3; subst h1; subst h2; subst h3
    exact .inr ⟨_, .sRand8 salt hr, ⟨rfl, rfl, rfl, h4, trivial, h6, SendsMagic_next h7 (some salt), h8, h9, h10, h11⟩, by simp [byteCount, ioCount]⟩
  | sRand32 salt hr =>
    simp only at h1 h2 h3; subst h1; subst h2; subst h3
    exact .inr ⟨_, .sRand32 salt hr, ⟨rfl, rfl, rfl, h4, trivial, h6, SendsMagic_next h7 (some salt), h8, h9, h10, h11⟩, by simp [byteCount, ioCount]⟩
  | sFwConnect =>
    simp only at h1 h2 h3; subst h1; subst h2; subst h3
    exact .inr ⟨_, .sFwConnect, ⟨rfl, rfl, rfl, h4, trivial, h6, SendsMagic_next h7 true, h8, h9, h10, h11⟩, by simp [byteCount, ioCount]⟩
  | sFwSend =>
    simp only at h1 h2 h3; subst h1; subst h2; subst h3
    exact .inr ⟨_, .sFwSend, ⟨rfl, rfl, rfl, h4, trivial, h6, SendsMagic_next h7 true, h8, h9, h10, h11⟩, by simp [byteCount, ioCount]⟩
  | sFwRecv ack ha =>
    simp only at h1 h2 h3; subst h1; subst h2; subst h3
    exact .inr ⟨_, .sFwRecv ack ha, ⟨rfl, rfl, rfl, h4, trivial, h6, SendsMagic_next h7 (.msg ack), h8, h9, h10, h11⟩, by simp [byteCount, ioCount]⟩
  | @cIo c s a b r c' a' b' hio =>
    simp only at h1 h2 h3 h4 h5 h10 h11 c1 c2
    subst h2; subst h3
    cases io_sim hio h4 (by rw [h1]; exact h6) h9 (txPart_lt h5) h11 with
    | stutter d prog ok rx out tx more =>
      refine .inl ⟨⟨prog.trans h1, rfl, rfl, ok, h5, h6, h7, h8, h9, ?_, ?_⟩, by simp only [byteCount]; omega⟩
      · simp only [out, tx]; rw [← List.append_assoc, h10, List.append_assoc]
      · simp only [rx]; exact h11
    | sent d m k prog next rx inp out tx =>
      rw [h1] at prog; subst prog
      subst next
      refine .inr ⟨_, .cSend, ⟨rfl, rfl, rfl, trivial, h5, SendsMagic_next h6 true, h7, ?_, h9, ?_, ?_⟩, by simp only [byteCount]; omega⟩
      · intro x hx
        rcases List.mem_append.1 hx with hx | hx
        · exact h8 x hx
        · rw [List.mem_singleton.1 hx]; exact SendsMagic_msg h6
      · simp only [out, txPart, List.append_nil, List.flatMap_append, List.flatMap_cons, List.flatMap_nil]
        rw [← List.append_assoc, h10, List.append_assoc, tx]
      · simp only [inp]; rw [rx] at h11; exact h11
    | received m k rest prog next queue inp out tx =>
      rw [h1] at prog; subst prog
      subst next; subst queue
      refine .inr ⟨_, .cRecv, ⟨rfl, rfl, rfl, trivial, h5, SendsMagic_next h6 (.msg m), h7, h8, fun x hx => h9 x (List.mem_cons_of_mem _ hx), ?_, ?_⟩,
        by simp only [byteCount]; omega⟩
      · simp only [out]; rw [tx] at h10; exact h10
      · simp only [inp]; rfl
    | eof k prog ended none tx =>
      rw [h1] at prog; subst prog; subst none
      exfalso
      have hsv : ∃ x, s.prog = .ret x := by
        unfold Side.ended at ended
        split at ended
        · exact ⟨_, ‹_›⟩
        · cases ended
      obtain ⟨x, hx⟩ := hsv
      rcases hl with ⟨J', hj⟩ | ⟨hc, -⟩
      · rw [hx] at hj; cases hj
      · cases hc
  | @sIo c s a b r s' a' b' hio =>
    simp only at h1 h2 h3 h4 h5 h10 h11 c1 c2
    subst h1; subst h3
    cases io_sim hio h5 (by rw [h2]; exact h7) h8 (txPart_lt h4) h10 with
    | stutter d prog ok rx out tx more =>
      refine .inl ⟨⟨rfl, prog.trans h2, rfl, h4, ok, h6, h7, h8, h9, ?_, ?_⟩, by simp only [byteCount]; omega⟩
      · simp only [rx]; exact h10
      · simp only [out, tx]; rw [← List.append_assoc, h11, List.append_assoc]
    | sent d m k prog next rx inp out tx =>
      rw [h2] at prog; subst prog
      subst next
      refine .inr ⟨_, .sSend, ⟨rfl, rfl, rfl, h4, trivial, h6, SendsMagic_next h7 true, h8, ?_, ?_, ?_⟩, by simp only [byteCount]; omega⟩
      · intro x hx
        rcases List.mem_append.1 hx with hx | hx
        · exact h9 x hx
        · rw [List.mem_singleton.1 hx]; exact SendsMagic_msg h7
      · simp only [inp]; rw [rx] at h10; exact h10
      · simp only [out, txPart, List.append_nil, List.flatMap_append, List.flatMap_cons, List.flatMap_nil]
        rw [← List.append_assoc, h11, List.append_assoc, tx]
    | received m k rest prog next queue inp out tx =>
      rw [h2] at prog; subst prog
      subst next; subst queue
      refine .inr ⟨_, .sRecv, ⟨rfl, rfl, rfl, h4, trivial, h6, SendsMagic_next h7 (.msg m), fun x hx => h8 x (List.mem_cons_of_mem _ hx), h9, ?_, ?_⟩,
        by simp only [byteCount]; omega⟩
      · simp only [inp]; rfl
      · simp only [out]; rw [tx] at h11; exact h11
    | eof k prog ended none tx =>
      rw [h2] at prog; subst prog; subst none
      exfalso
      have hsv : ∃ x, c.prog = .ret x := by
        unfold Side.ended at ended
        split at ended
        · exact ⟨_, ‹_›⟩
        · cases ended
      obtain ⟨x, hx⟩ := hsv
      rcases hl with ⟨J', hj⟩ | ⟨-, hc⟩
      · rw [hx] at hj; cases hj
      · cases hc

/-- If the message level can go on, so can the byte level. -/
theorem rel_progress {B : ByteJoint} {J : Joint} (h : Rel B J) (hj : ∃ J', JStep J J') : ∃ B', BStep B B' := by
  obtain ⟨⟨cp, cio⟩, ⟨sp, sio⟩, a, b, r⟩ := B
  obtain ⟨jc, js, ja, jb, jr⟩ := J
  obtain ⟨h1, h2, h3, h4, h5, h6, h7, h8, h9, h10, h11⟩ := h
  simp only at h1 h2 h3 h4 h5 h6 h7 h8 h9 h10 h11
  subst h1; subst h2; subst h3
  obtain ⟨J', hj⟩ := hj
  have cidle : ∀ {x : Act} {k}, IoOk ⟨.act x k, cio⟩ → (∀ m, x ≠ .send m) → x ≠ .recv → cio = .idle := by
    intro x k hx n1 n2
    cases cio with
    | idle => rfl
    | tx => obtain ⟨m, _, e, -⟩ := hx; injection e with e; exact absurd e (n1 m)
    | rx => obtain ⟨_, e, -⟩ := hx; injection e with e; exact absurd e n2
  have sidle : ∀ {x : Act} {k}, IoOk ⟨.act x k, sio⟩ → (∀ m, x ≠ .send m) → x ≠ .recv → sio = .idle := by
    intro x k hx n1 n2
    cases sio with
    | idle => rfl
    | tx => obtain ⟨m, _, e, -⟩ := hx; injection e with e; exact absurd e (n1 m)
    | rx => obtain ⟨_, e, -⟩ := hx; injection e with e; exact absurd e n2
  -- a receiver with a message waiting has bytes waiting
  have wait : ∀ {k : RecvOut → Prog Unit} {io : Io} {m : Message} {rest : List Message} {i pi : Bytes}, IoOk ⟨.act .recv k, io⟩ →
      (wireOf m).length = 56 → rxPart io ++ i = (m :: rest).flatMap wireOf ++ pi → io = .idle ∨ i ≠ [] := by
    intro k io m rest i pi hx hw he
    cases io with
    | idle => exact .inl rfl
    | tx => obtain ⟨m, _, e, -⟩ := hx; injection e with e; cases e
    | rx buf c =>
      obtain ⟨_, -, -, hl, hc⟩ := hx
      refine .inr fun h0 => ?_
      have := congrArg List.length he
      rw [h0] at this
      simp only [rxPart, List.append_nil, List.length_append, List.length_take, List.flatMap_cons] at this
      omega
  cases hj with
  | cConnect => have := cidle h4 (by simp) (by simp); subst this; exact ⟨_, .cConnect⟩
  | cRand salt hr => have := cidle h4 (by simp) (by simp); subst this; exact ⟨_, .cRand salt hr⟩
  | cSend => obtain ⟨_, _, _, h⟩ := io_progress_send h4 h6 b a; exact ⟨_, .cIo h⟩
  | cRecv =>
    obtain ⟨_, _, _, h⟩ := io_progress_recv h4 a (wait h4 (msg_codec _ (h9 _ (by simp))).1 h11)
    exact ⟨_, .cIo h⟩
  | sRand8 salt hr => have := sidle h5 (by simp) (by simp); subst this; exact ⟨_, .sRand8 salt hr⟩
  | sRand32 salt hr => have := sidle h5 (by simp) (by simp); subst this; exact ⟨_, .sRand32 salt hr⟩
  | sSend => obtain ⟨_, _, _, h⟩ := io_progress_send h5 h7 a b; exact ⟨_, .sIo h⟩
  | sRecv =>
    obtain ⟨_, _, _, h⟩ := io_progress_recv h5 b (wait h5 (msg_codec _ (h8 _ (by simp))).1 h10)
    exact ⟨_, .sIo h⟩
  | sFwConnect => have := sidle h5 (by simp) (by simp); subst this; exact ⟨_, .sFwConnect⟩
  | sFwSend => have := sidle h5 (by simp) (by simp); subst this; exact ⟨_, .sFwSend⟩
  | sFwRecv ack ha => have := sidle h5 (by simp) (by simp); subst this; exact ⟨_, .sFwRecv ack ha⟩

/-- Both sides have ended with success, no byte is left in transit. -/
structure BothSucceededBytes (B : ByteJoint) : Prop where
  client : B.client = ⟨.ret (.ok ()), .idle⟩
  server : B.server = ⟨.ret (.ok ()), .idle⟩
  nothingLeft : B.c2s = [] ∧ B.s2c = []

/-- **C73**. C14 for the bytes: however the bytes of the messages are cut into pieces, and however the pieces and the two programs are
interleaved, an honest exchange has at most 1024 steps, a run that has not ended with success on both sides can be continued, and then
exactly the one request has been made. -/
theorem C73_every_byte_run_succeeds (mac : MacFn) (conf : Config) (peer : IpAddr) (u : UserId) (r : ResourceId) (key : Key)
    (res : Resource) (hk : conf.key u = some key) (hg : Granted conf u r res) (hp : res.tcp = true ∨ res.udp = true)
    (n : Nat) (B : ByteJoint) (hs : BSteps n (ByteJoint.init mac conf peer u r key) B) :
    n ≤ 1024 ∧ ((∃ B', BStep B B') ∨ (BothSucceededBytes B ∧
      ∃ pt, opensTcp pt = res.tcp ∧ opensUdp pt = res.udp ∧ B.reqs = [FwMessage.newOpen peer pt res.port])) := by
  have key1 : ∃ j J, JSteps j (Joint.init mac conf peer u r key) J ∧ Rel B J ∧ n ≤ 57 * j + byteCount B := by
    generalize hB0 : ByteJoint.init mac conf peer u r key = B0 at hs
    induction hs with
    | refl B0 =>
      subst hB0
      exact ⟨0, _, .refl _, ⟨rfl, rfl, rfl, trivial, trivial, SendsMagic_client .., SendsMagic_session .., by simp [Joint.init], by simp [Joint.init], rfl, rfl⟩, by omega⟩
    | @step n B0 B1 B2 hs hb ih =>
      obtain ⟨j, J, h1, h2, h3⟩ := ih hB0
      have hl : Live J := by
        rcases (C14_every_run_succeeds mac conf peer u r key res hk hg hp j J h1).2 with h | ⟨-, h, -⟩
        · exact .inl h
        · exact .inr ⟨h.client, h.server⟩
      rcases rel_step h2 hl hb with ⟨h4, h5⟩ | ⟨J', h4, h5, h6⟩
      · exact ⟨j, J, h1, h4, by omega⟩
      · exact ⟨j + 1, J', .step h1 h4, h5, by omega⟩
  obtain ⟨j, J, h1, h2, h3⟩ := key1
  have hc1 := ioCount_le h2.cOk
  have hc2 := ioCount_le h2.sOk
  have hidle : ∀ {s : Side} {x}, IoOk s → s.prog = .ret x → s = ⟨.ret x, .idle⟩ := by
    rintro ⟨p, io⟩ x hx hp
    simp only at hp
    subst hp
    cases io with
    | idle => rfl
    | tx => obtain ⟨_, _, e, -⟩ := hx; cases e
    | rx => obtain ⟨_, e, -⟩ := hx; cases e
  obtain ⟨h4, h5⟩ := C14_every_run_succeeds mac conf peer u r key res hk hg hp j J h1
  rcases h5 with h5 | ⟨rfl, h5, pt, h6, h7, h8⟩
  · have hj : j ≤ 16 := by
      obtain ⟨J', hj⟩ := h5
      have := (C14_every_run_succeeds mac conf peer u r key res hk hg hp (j + 1) J' (.step h1 hj)).1
      omega
    refine ⟨?_, .inl (rel_progress h2 h5)⟩
    simp only [byteCount] at h3
    omega
  · have e1 := hidle h2.cOk (h2.client.trans h5.client)
    have e2 := hidle h2.sOk (h2.server.trans h5.server)
    have e3 := h2.c2s
    have e4 := h2.s2c
    rw [e1, e2, h5.nothingLeft.1] at e3
    rw [e1, e2, h5.nothingLeft.2] at e4
    refine ⟨?_, .inr ⟨⟨e1, e2, e3, e4⟩, pt, h6, h7, h2.reqs.trans h8⟩⟩
    simp only [byteCount, e1, e2, ioCount] at h3
    omega

/-- **C73** (existence). There is a complete run. -/
theorem C73_byte_run_exists (mac : MacFn) (conf : Config) (peer : IpAddr) (u : UserId) (r : ResourceId) (key : Key)
    (res : Resource) (hk : conf.key u = some key) (hg : Granted conf u r res) (hp : res.tcp = true ∨ res.udp = true) :
    ∃ n B, BSteps n (ByteJoint.init mac conf peer u r key) B ∧ BothSucceededBytes B := by
  apply Classical.byContradiction
  intro hno
  have step : ∀ n, ∃ B, BSteps n (ByteJoint.init mac conf peer u r key) B := by
    intro n
    induction n with
    | zero => exact ⟨_, .refl _⟩
    | succ n ih =>
      obtain ⟨B, hB⟩ := ih
      rcases (C73_every_byte_run_succeeds mac conf peer u r key res hk hg hp n B hB).2 with ⟨B', h'⟩ | ⟨h, -⟩
      · exact ⟨B', .step hB h'⟩
      · exact absurd ⟨n, B, hB, h⟩ hno
  obtain ⟨B, hB⟩ := step 1025
  have := (C73_every_byte_run_succeeds mac conf peer u r key res hk hg hp 1025 B hB).1
  omega

/-- The hypotheses hold for the example configuration. -/
example : ∃ n B, BSteps n (ByteJoint.init (fun _ _ => goodNonce) exampleConf (.v4 ⟨[192, 0, 2, 1], rfl⟩) ⟨0xA423DDA7⟩ ⟨0xBC5D8077⟩ (Arr.replicate 32 7)) B ∧
    BothSucceededBytes B :=
  C73_byte_run_exists _ _ _ _ _ _ _ (by decide +kernel) ⟨rfl, by decide +kernel, by decide +kernel⟩ (by decide +kernel)

/-- The rounds are those of the loops in `Verif.Model.Stream`. -/
theorem C73_tx_round (buf wire : Bytes) (count n : Nat) (sched : List WrStep) :
    (∀ count' taken, txRound buf count n = .ok (count', taken) → txLoop buf count wire (.wrote n :: sched) =
      if count' = buf.length then (.ok, wire ++ taken, sched) else txLoop buf count' (wire ++ taken) sched) ∧
    (txRound buf count n = .panic → (txLoop buf count wire (.wrote n :: sched)).1 = .panic) := by
  unfold txRound
  rw [txLoop]
  cases h : sliceFrom buf count with
  | ok rest =>
    simp only
    split
    · simp
    · refine ⟨?_, by simp⟩
      intro count' taken e
      injection e with e
      injection e with e1 e2
      subst e1; subst e2
      rfl
  | err => simp
  | panic => simp

theorem C73_rx_round (buf data : Bytes) (count n : Nat) (hd : data ≠ []) (hc : count < buf.length) (sched : List RdStep) :
    (∀ buf' count' data', rxRound buf count data n = .ok (buf', count', data') → rxLoop MSG_SIZE buf count data (.chunk n :: sched) =
      if count' = MSG_SIZE then (.msg buf', data', sched) else rxLoop MSG_SIZE buf' count' data' sched) ∧
    (rxRound buf count data n = .panic → (rxLoop MSG_SIZE buf count data (.chunk n :: sched)).1 = .panic) := by
  have h0 : ¬ (kernelRead data (buf.length - count) n).length = 0 := by
    have := List.length_pos_iff.2 hd
    simp only [kernelRead, List.length_take]; omega
  unfold rxRound
  rw [rxLoop]
  simp only [if_neg h0]
  cases h : writeAt buf count (kernelRead data (buf.length - count) n) with
  | ok buf' =>
    simp only
    split
    · simp
    · refine ⟨?_, by simp⟩
      intro b c d e
      injection e with e
      injection e with e1 e2
      injection e2 with e2 e3
      subst e1; subst e2; subst e3
      rfl
  | err => simp
  | panic => simp

example : txRound [1, 2, 3, 4] 1 2 = .ok (3, [2, 3]) := by decide
example : rxRound (Arr.replicate MSG_SIZE 0).val 0 [7, 8, 9] 1 = .ok ([7, 8] ++ List.replicate 54 0, 2, [9]) := by decide

end Letmein.Props
