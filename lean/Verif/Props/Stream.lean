import Verif.Lemmas.Stream
import Verif.Props.Wire
import Verif.Props.FwWire

/-!
# Property C05: stream transport under every fragmentation
-/

set_option linter.unusedSimpArgs false

namespace Letmein.Props

open Letmein

/-- **C05** (receive). For every stream content and every schedule of an open connection:
a message is exactly the next 56 bytes and nothing more is consumed; "disconnected" means that fewer than 56 bytes were left;
an error means that the kernel reported one; there is no panic. -/
theorem C05_recv_any_schedule (data : Bytes) (sched : List RdStep) :
    let r := tcpRecv false data sched
    (∀ b, r.1 = .msg b → b = data.take 56 ∧ b.length = 56 ∧ r.2.1 = data.drop 56) ∧
    (r.1 = .disconnected → data.length < 56 ∧ r.2.1 = []) ∧
    (r.1 = .err → ∃ s ∈ sched, s.isFail = true) ∧
    r.1 ≠ .panic := by
  have h := rxLoop_start MSG_SIZE (by decide) data sched
  have e : tcpRecv false data sched = rxLoop MSG_SIZE (List.replicate MSG_SIZE 0) 0 data sched := rfl
  simp only [e]
  have e56 : MSG_SIZE = 56 := rfl
  generalize rxLoop MSG_SIZE (List.replicate MSG_SIZE 0) 0 data sched = r at h ⊢
  rw [e56] at h
  rcases h with ⟨h1, h2, h3⟩ | ⟨h1, h2, h3⟩ | ⟨h1, h2⟩ | ⟨h1, h2, h3⟩
  · refine ⟨?_, by simp [h1], by simp [h1], by simp [h1]⟩
    intro b hb
    rw [h1] at hb
    injection hb with hb
    subst hb
    exact ⟨rfl, by simp; omega, h3⟩
  · exact ⟨by simp [h1], fun _ => ⟨h2, h3⟩, by simp [h1], by simp [h1]⟩
  · exact ⟨by simp [h1], by simp [h1], fun _ => h2, by simp [h1]⟩
  · exact ⟨by simp [h1], by simp [h1], by simp [h1], by simp [h1]⟩

/-- **C05** (receive makes progress). If the kernel reports no error and hands out data at least 56 times, the
receive completes, with a message iff the stream still has one. -/
theorem C05_recv_completes (data : Bytes) (sched : List RdStep)
    (hf : ∀ s ∈ sched, s.isFail = false) (hn : 56 ≤ sched.countP RdStep.isChunk) :
    (tcpRecv false data sched).1 = if 56 ≤ data.length then .msg (data.take 56) else .disconnected := by
  have h := rxLoop_start MSG_SIZE (by decide) data sched
  have e : tcpRecv false data sched = rxLoop MSG_SIZE (List.replicate MSG_SIZE 0) 0 data sched := rfl
  simp only [e]
  have e56 : MSG_SIZE = 56 := rfl
  generalize rxLoop MSG_SIZE (List.replicate MSG_SIZE 0) 0 data sched = r at h ⊢
  rw [e56] at h
  rcases h with ⟨h1, h2, h3⟩ | ⟨h1, h2, h3⟩ | ⟨h1, x, hx, hxf⟩ | ⟨h1, h2, h3⟩
  · rw [if_pos h2, h1]
  · rw [if_neg (by omega), h1]
  · simp [hf x hx] at hxf
  · omega

/-- **C05** (a closed socket neither reads nor writes). -/
theorem C05_closed (data buf wire : Bytes) (sched : List RdStep) (wsched : List WrStep) :
    tcpRecv true data sched = (.err, data, sched) ∧ tcpSend true buf wire wsched = (.err, wire, wsched) := ⟨rfl, rfl⟩

/-- **C05** (send). For every schedule: the bytes put on the wire are a prefix of the message, all of it iff the send
reports success; an error means the kernel reported one; no panic; with enough room offered and no error the send completes. -/
theorem C05_send_any_schedule (buf wire : Bytes) (hb : buf ≠ []) (sched : List WrStep) :
    let r := tcpSend false buf wire sched
    (∃ k, k ≤ buf.length ∧ r.2.1 = wire ++ buf.take k ∧ (r.1 = .ok ↔ k = buf.length)) ∧
    r.1 ≠ .panic ∧
    (r.1 = .err → ∃ s ∈ sched, s.isFail = true) ∧
    ((∀ s ∈ sched, s.isFail = false) → buf.length ≤ (sched.map WrStep.room).sum → r.1 = .ok) := by
  have h := txLoop_spec sched buf wire 0 (List.length_pos_iff.2 hb)
  simp only [List.take_zero, List.append_nil] at h
  have e : tcpSend false buf wire sched = txLoop buf 0 wire sched := rfl
  simp only [e]
  obtain ⟨⟨k, h1, h2, h3, h4⟩, h5, h6, h7⟩ := h
  refine ⟨⟨k, h2, h3, h4⟩, h5, h6, ?_⟩
  intro hf hn
  cases hr : (txLoop buf 0 wire sched).1 with
  | ok => rfl
  | err =>
    obtain ⟨s, hs, hsf⟩ := h6 hr
    simp [hf s hs] at hsf
  | panic => exact absurd hr h5
  | pending =>
    obtain ⟨_, h8⟩ := h7 hr
    omega

/-! ### Sequences of messages -/

/-- One message send, in the shape used by `sendAll`. -/
def msgTx (m : Message) (s : List WrStep) (w : Bytes) : TxResult × Bytes :=
  ((msgSend false m w s).1, (msgSend false m w s).2.1)

/-- One firewall-message send, in the shape used by `sendAll`. -/
def fwTx (m : FwMessage) (s : List WrStep) (w : Bytes) : TxResult × Bytes :=
  ((fwSend m w s).1, (fwSend m w s).2.1)

/-- The documented image of a message on the wire. -/
def wireOf (m : Message) : Bytes :=
  Spec.knockImage (opNumber m.operation) m.user.raw.toNat m.resource.raw.toNat m.salt.val m.auth.val

theorem msgTx_wire (m : Message) (hm : m.magic = MAGIC) (s : List WrStep) (w : Bytes)
    (h : (msgTx m s w).1 = .ok) : (msgTx m s w).2 = w ++ wireOf m := by
  obtain ⟨hser, hlen⟩ := C01_serialize_layout m hm
  simp only [msgTx, msgSend, hser, wireOf] at h ⊢
  obtain ⟨⟨k, h1, h2, h3⟩, _⟩ := C05_send_any_schedule _ w (List.ne_nil_of_length_pos (by rw [hlen]; decide)) s
  rw [h2, h3.1 h, List.take_length]

theorem fwTx_wire (m : FwMessage) (s : List WrStep) (w : Bytes)
    (h : (fwTx m s w).1 = .ok) : (fwTx m s w).2 = w ++ fwImageOf m := by
  obtain ⟨hser, hlen⟩ := C06_serialize_layout m
  simp only [fwTx, fwSend, hser] at h ⊢
  obtain ⟨⟨k, h1, h2, h3⟩, _⟩ := C05_send_any_schedule (fwImageOf m) w (by intro hc; rw [hc] at hlen; simp at hlen) s
  simp only [tcpSend] at h2 h3
  rw [if_neg (by decide)] at h2 h3
  rw [h2, h3.1 h, List.take_length]

theorem msg_codec (m : Message) (hm : m.magic = MAGIC) :
    (wireOf m).length = MSG_SIZE ∧ Message.deserialize (wireOf m) = .ok m := by
  refine ⟨(C01_serialize_layout m hm).2, ?_⟩
  rw [C02_decode_iff]
  exact ⟨by rw [hm]; rfl, rfl⟩

theorem msgRecv_framed : msgRecv false = framedRecv MSG_SIZE Message.deserialize := rfl
theorem fwRecv_framed : fwRecv = framedRecv FWMSG_SIZE FwMessage.deserialize := rfl

/-- **C05** (end to end, safety). Messages sent one after another with arbitrary write schedules, received one after
another with arbitrary read schedules: what is received is always a prefix of what was sent. -/
theorem C05_transfer_prefix (ms : List (Message × List WrStep)) (hv : ∀ p ∈ ms, p.1.magic = MAGIC)
    (scheds : List (List RdStep)) (hsent : (sendAll msgTx ms []).1 = .ok) :
    (recvAll (msgRecv false) scheds (sendAll msgTx ms []).2).1 <+: ms.map Prod.fst := by
  rw [sendAll_wire wireOf msgTx ms (fun m s w hm => msgTx_wire m (hv _ hm) s w) [] hsent, List.nil_append,
    msgRecv_framed]
  refine framed_prefix _ (by decide) _ _ _ ?_ _
  intro m hm
  obtain ⟨p, hp, rfl⟩ := List.mem_map.1 hm
  exact msg_codec _ (hv p hp)

/-- **C05** (end to end, completeness). If additionally no read fails and each receive gets enough chunks, exactly
the sent messages are received, in order, and then the end of the stream is reported. -/
theorem C05_transfer_exact (ms : List (Message × List WrStep)) (hv : ∀ p ∈ ms, p.1.magic = MAGIC)
    (scheds : List (List RdStep)) (hsent : (sendAll msgTx ms []).1 = .ok)
    (hn : ms.length < scheds.length)
    (hok : ∀ sch ∈ scheds, (∀ s ∈ sch, s.isFail = false) ∧ 56 ≤ sch.countP RdStep.isChunk) :
    recvAll (msgRecv false) scheds (sendAll msgTx ms []).2 = (ms.map Prod.fst, .disconnected, []) := by
  rw [sendAll_wire wireOf msgTx ms (fun m s w hm => msgTx_wire m (hv _ hm) s w) [] hsent, List.nil_append,
    msgRecv_framed]
  refine framed_complete _ (by decide) _ _ _ ?_ _ (by simpa using hn) hok
  intro m hm
  obtain ⟨p, hp, rfl⟩ := List.mem_map.1 hm
  exact msg_codec _ (hv p hp)

/-- **C05** (a peer that dies in the middle of a message). After complete messages followed by a truncated one,
the complete ones are received and nothing is made up from the rest. -/
theorem C05_truncated_tail (ms : List Message) (hv : ∀ m ∈ ms, m.magic = MAGIC) (tail : Bytes) (ht : tail.length < 56)
    (scheds : List (List RdStep)) :
    (recvAll (msgRecv false) scheds (ms.flatMap wireOf ++ tail)).1 <+: ms := by
  induction scheds generalizing ms with
  | nil => simp [recvAll]
  | cons s scheds ih =>
    have h := rxLoop_start MSG_SIZE (by decide) (ms.flatMap wireOf ++ tail) s
    simp only at h
    rw [recvAll]
    generalize hr : rxLoop MSG_SIZE (List.replicate MSG_SIZE 0) 0 (ms.flatMap wireOf ++ tail) s = r at h
    have hfr : msgRecv false (ms.flatMap wireOf ++ tail) s = (decodeRx Message.deserialize r.1, r.2) := by
      rw [msgRecv_framed, framedRecv, hr]
    rw [hfr]
    rcases h with ⟨h1, h2, h3⟩ | ⟨h1, h2, h3⟩ | ⟨h1, h2⟩ | ⟨h1, h2, h3⟩
    · cases ms with
      | nil =>
        have e56 : MSG_SIZE = 56 := rfl
        rw [e56] at h2
        simp at h2; omega
      | cons m ms =>
        obtain ⟨hlen, hdec⟩ := msg_codec m (hv m (by simp))
        have e1 : ((m :: ms).flatMap wireOf ++ tail).take MSG_SIZE = wireOf m := by
          rw [List.flatMap_cons, List.append_assoc, ← hlen, List.take_left']
          rfl
        have e2 : ((m :: ms).flatMap wireOf ++ tail).drop MSG_SIZE = ms.flatMap wireOf ++ tail := by
          rw [List.flatMap_cons, List.append_assoc, ← hlen, List.drop_left']
          rfl
        rw [h1, e1]
        simp only [decodeRx, hdec, h3, e2]
        exact List.cons_prefix_cons.2 ⟨rfl, ih ms (fun x hx => hv x (List.mem_cons_of_mem _ hx))⟩
    · simp [h1, decodeRx]
    · simp [h1, decodeRx]
    · simp [h1, decodeRx]

/-- **C05** for the socket between letmeind and letmeinfwd. -/
theorem C05_fw_transfer_exact (ms : List (FwMessage × List WrStep))
    (scheds : List (List RdStep)) (hsent : (sendAll fwTx ms []).1 = .ok) :
    (recvAll fwRecv scheds (sendAll fwTx ms []).2).1 <+: ms.map Prod.fst ∧
    (ms.length < scheds.length →
      (∀ sch ∈ scheds, (∀ s ∈ sch, s.isFail = false) ∧ 24 ≤ sch.countP RdStep.isChunk) →
      recvAll fwRecv scheds (sendAll fwTx ms []).2 = (ms.map Prod.fst, .disconnected, [])) := by
  have hc : ∀ m : FwMessage, m ∈ ms.map Prod.fst → (fwImageOf m).length = FWMSG_SIZE ∧
      FwMessage.deserialize (fwImageOf m) = .ok m :=
    fun m _ => ⟨(C06_serialize_layout m).2, (C06_decode_iff _ _).2 rfl⟩
  rw [sendAll_wire fwImageOf fwTx ms (fun m s w _ => fwTx_wire m s w) [] hsent, List.nil_append, fwRecv_framed]
  exact ⟨framed_prefix _ (by decide) _ _ _ hc _,
    fun hn hok => framed_complete _ (by decide) _ _ _ hc _ (by simpa using hn) hok⟩

/-! ### Concrete cases -/

/-- Writes of one byte, with interruptions. -/
example : (sendAll msgTx [(exampleMsg, List.replicate 56 (.wrote 1)), (exampleChallenge, [.wouldBlock, .wrote 40, .wrote 100])] []).1
    = .ok := by decide +kernel
/-- Reads that straddle message boundaries as far as the kernel lets them. -/
example : recvAll (msgRecv false)
    [.wouldBlock :: List.replicate 56 (.chunk 0), List.replicate 56 (.chunk 1000), List.replicate 56 (.chunk 6)]
    (sendAll msgTx [(exampleMsg, List.replicate 56 (.wrote 1)), (exampleChallenge, [.wouldBlock, .wrote 40, .wrote 100])] []).2
    = ([exampleMsg, exampleChallenge], .disconnected, []) := by
  refine C05_transfer_exact _ ?_ _ (by decide +kernel) (by decide) ?_
  · decide +kernel
  · decide +kernel
example : (tcpRecv false (List.replicate 20 1) [.chunk 9, .chunk 9, .chunk 9]).1 = .disconnected := by decide +kernel
example : (sendAll fwTx [(FwMessage.newAck, [.wrote 3, .wrote 30])] []).1 = .ok := by decide +kernel

end Letmein.Props
