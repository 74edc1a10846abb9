import Verif.Model.Stream
import Verif.Lemmas.FwWire

/-! Helper lemmas about the stream loops. -/

namespace Letmein

/-- A step of the schedule that is an error. -/
def RdStep.isFail : RdStep → Bool
  | .fail | .pollFail => true
  | _ => false
def RdStep.isChunk : RdStep → Bool
  | .chunk _ => true
  | _ => false
def WrStep.isFail : WrStep → Bool
  | .fail | .pollFail => true
  | _ => false
/-- Bytes offered by a write step. -/
def WrStep.room : WrStep → Nat
  | .wrote n => n
  | _ => 0

/-- The receive loop: what the three possible endings mean. `got` are the bytes already received. -/
theorem rxLoop_spec (size : Nat) (sched : List RdStep) (got data : Bytes) (z : Nat) (hz : got.length + z = size)
    (hz0 : 0 < z) :
    let r := rxLoop size (got ++ List.replicate z 0) got.length data sched
    (r.1 = .msg (got ++ data.take z) ∧ z ≤ data.length ∧ r.2.1 = data.drop z) ∨
    (r.1 = .disconnected ∧ data.length < z ∧ r.2.1 = []) ∨
    (r.1 = .err ∧ (∃ s ∈ sched, s.isFail = true)) ∨
    (r.1 = .pending ∧ (∀ s ∈ sched, s.isFail = false) ∧ sched.countP RdStep.isChunk < z) := by
  induction sched generalizing got data z with
  | nil => simp [rxLoop, hz0]
  | cons s sched ih =>
    cases s with
    | pollFail => simp [rxLoop, RdStep.isFail]
    | fail => simp [rxLoop, RdStep.isFail]
    | wouldBlock =>
      have := ih got data z hz hz0
      simpa [rxLoop, RdStep.isFail, RdStep.isChunk] using this
    | chunk n =>
      simp only [rxLoop]
      have hroom : (got ++ List.replicate z (0 : UInt8)).length - got.length = z := by simp
      simp only [hroom]
      generalize hg : kernelRead data z n = g
      have hgl : g.length = min (min (n + 1) z) data.length := by rw [← hg]; simp [kernelRead]
      have hgd : g = data.take g.length := by
        rw [hgl, ← hg, kernelRead, List.take_eq_take_iff]
        omega
      by_cases h0 : g.length = 0
      · have : data.length = 0 := by omega
        rw [if_pos h0]
        right; left
        have : data = [] := by simpa using this
        subst this
        simp [hz0]
      · rw [if_neg h0]
        have hgz : g.length ≤ z := by omega
        rw [writeAt_prefix got g z hgz got.length rfl]
        simp only
        have hle : got.length + g.length ≤ size := by omega
        rw [if_neg (by simpa using hle)]
        by_cases hfull : got.length + g.length = size
        · rw [if_pos hfull]
          left
          have hz' : g.length = z := by omega
          refine ⟨?_, by omega, by rw [hz']⟩
          rw [hgd, hz']; simp; omega
        · rw [if_neg hfull]
          have := ih (got ++ g) (data.drop g.length) (z - g.length) (by simp; omega) (by omega)
          simp only [List.length_append] at this
          rcases this with ⟨h1, h2, h3⟩ | ⟨h1, h2, h3⟩ | ⟨h1, h2⟩ | ⟨h1, h2, h3⟩
          · left
            refine ⟨?_, ?_, ?_⟩
            · rw [h1, List.append_assoc]
              congr 2
              have h4 : g ++ List.take (z - g.length) (List.drop g.length data)
                  = data.take g.length ++ List.take (z - g.length) (List.drop g.length data) := by rw [← hgd]
              rw [h4, ← List.take_add]
              congr 1; omega
            · simp at h2; omega
            · rw [h3, List.drop_drop]; congr 1; omega
          · right; left
            refine ⟨h1, ?_, h3⟩
            simp at h2; omega
          · right; right; left
            obtain ⟨s, hs, hf⟩ := h2
            exact ⟨h1, s, List.mem_cons_of_mem _ hs, hf⟩
          · right; right; right
            refine ⟨h1, ?_, ?_⟩
            · intro s hs
              rcases List.mem_cons.1 hs with rfl | hs
              · rfl
              · exact h2 s hs
            · rw [List.countP_cons, show RdStep.isChunk (.chunk n) = true from rfl, if_pos rfl]; omega

/-- The send loop. -/
theorem txLoop_spec (sched : List WrStep) (buf wire : Bytes) (count : Nat) (hc : count < buf.length) :
    let r := txLoop buf count (wire ++ buf.take count) sched
    (∃ k, count ≤ k ∧ k ≤ buf.length ∧ r.2.1 = wire ++ buf.take k ∧ (r.1 = .ok ↔ k = buf.length)) ∧
    r.1 ≠ .panic ∧
    (r.1 = .err → ∃ s ∈ sched, s.isFail = true) ∧
    (r.1 = .pending → (∀ s ∈ sched, s.isFail = false) ∧ (sched.map WrStep.room).sum < buf.length - count) := by
  induction sched generalizing count with
  | nil =>
    refine ⟨⟨count, by omega, by omega, by simp [txLoop], ?_⟩, by simp [txLoop], by simp [txLoop], ?_⟩
    · simp [txLoop]; omega
    · simp; omega
  | cons s sched ih =>
    cases s with
    | pollFail =>
      refine ⟨⟨count, by omega, by omega, by simp [txLoop], ?_⟩, by simp [txLoop], by simp [WrStep.isFail], by simp [txLoop]⟩
      simp [txLoop]; omega
    | fail =>
      refine ⟨⟨count, by omega, by omega, by simp [txLoop], ?_⟩, by simp [txLoop], by simp [WrStep.isFail], by simp [txLoop]⟩
      simp [txLoop]; omega
    | wouldBlock =>
      have := ih count hc
      simpa [txLoop, WrStep.isFail, WrStep.room] using this
    | wrote n =>
      simp only [txLoop, sliceFrom, if_pos (Nat.le_of_lt hc)]
      have e : wire ++ buf.take count ++ (buf.drop count).take n = wire ++ buf.take (count + n) := by
        rw [List.append_assoc, ← List.take_add]
      rw [e]
      have hl : ((buf.drop count).take n).length = min n (buf.length - count) := by simp
      rw [hl]
      rw [if_neg (by omega)]
      by_cases hfull : count + min n (buf.length - count) = buf.length
      · rw [if_pos hfull]
        refine ⟨⟨buf.length, by omega, by omega, ?_, by simp⟩, by simp, by simp, by simp⟩
        simp only
        rw [List.take_of_length_le (by omega), List.take_of_length_le (by omega)]
      · rw [if_neg hfull]
        have hn : min n (buf.length - count) = n := by omega
        rw [hn] at hfull ⊢
        obtain ⟨⟨k, h1, h2, h3, h4⟩, h5, h6, h7⟩ := ih (count + n) (by omega)
        refine ⟨⟨k, by omega, h2, h3, h4⟩, h5, ?_, ?_⟩
        · intro h
          obtain ⟨s, hs, hf⟩ := h6 h
          exact ⟨s, List.mem_cons_of_mem _ hs, hf⟩
        · intro h
          obtain ⟨h8, h9⟩ := h7 h
          refine ⟨?_, ?_⟩
          · intro s hs
            rcases List.mem_cons.1 hs with rfl | hs
            · rfl
            · exact h8 s hs
          · simp only [List.map_cons, List.sum_cons, WrStep.room]; omega

end Letmein

namespace Letmein

/-- Generic framed receive used for both message kinds. -/
def framedRecv {α : Type} (size : Nat) (decode : Bytes → R α) (data : Bytes) (sched : List RdStep) :
    MsgRx α × Bytes × List RdStep :=
  let r := rxLoop size (List.replicate size 0) 0 data sched
  (decodeRx decode r.1, r.2)

theorem rxLoop_start (size : Nat) (hs : 0 < size) (data : Bytes) (sched : List RdStep) :
    let r := rxLoop size (List.replicate size 0) 0 data sched
    (r.1 = .msg (data.take size) ∧ size ≤ data.length ∧ r.2.1 = data.drop size) ∨
    (r.1 = .disconnected ∧ data.length < size ∧ r.2.1 = []) ∨
    (r.1 = .err ∧ (∃ s ∈ sched, s.isFail = true)) ∨
    (r.1 = .pending ∧ (∀ s ∈ sched, s.isFail = false) ∧ sched.countP RdStep.isChunk < size) := by
  simpa using rxLoop_spec size sched [] data size (by simp) hs

/-- Every schedule: the received messages are a prefix of the sent ones. -/
theorem framed_prefix {α : Type} (size : Nat) (hs : 0 < size) (encode : α → Bytes) (decode : Bytes → R α)
    (ms : List α) (hm : ∀ m ∈ ms, (encode m).length = size ∧ decode (encode m) = .ok m)
    (scheds : List (List RdStep)) :
    (recvAll (framedRecv size decode) scheds (ms.flatMap encode)).1 <+: ms := by
  induction scheds generalizing ms with
  | nil => simp [recvAll]
  | cons s scheds ih =>
    have h := rxLoop_start size hs (ms.flatMap encode) s
    simp only at h
    rw [recvAll]
    generalize hr : rxLoop size (List.replicate size 0) 0 (ms.flatMap encode) s = r at h
    have hfr : framedRecv size decode (ms.flatMap encode) s = (decodeRx decode r.1, r.2) := by
      rw [framedRecv, hr]
    rw [hfr]
    rcases h with ⟨h1, h2, h3⟩ | ⟨h1, h2, h3⟩ | ⟨h1, h2⟩ | ⟨h1, h2, h3⟩
    · cases ms with
      | nil => simp at h2; omega
      | cons m ms =>
        obtain ⟨hlen, hdec⟩ := hm m (by simp)
        have hm' := fun x (hx : x ∈ ms) => hm x (List.mem_cons_of_mem _ hx)
        have e1 : ((m :: ms).flatMap encode).take size = encode m := by
          simp [List.take_append, hlen]
        have e2 : ((m :: ms).flatMap encode).drop size = ms.flatMap encode := by
          simp [List.drop_append, hlen, List.drop_of_length_le]
        rw [h1, e1]
        simp only [decodeRx, hdec, h3, e2]
        exact List.cons_prefix_cons.2 ⟨rfl, ih ms hm'⟩
    · simp [h1, decodeRx]
    · simp [h1, decodeRx]
    · simp [h1, decodeRx]

/-- Schedules without errors and with enough progress: exactly the sent messages arrive, then "disconnected". -/
theorem framed_complete {α : Type} (size : Nat) (hs : 0 < size) (encode : α → Bytes) (decode : Bytes → R α)
    (ms : List α) (hm : ∀ m ∈ ms, (encode m).length = size ∧ decode (encode m) = .ok m)
    (scheds : List (List RdStep)) (hn : ms.length < scheds.length)
    (hok : ∀ sch ∈ scheds, (∀ s ∈ sch, s.isFail = false) ∧ size ≤ sch.countP RdStep.isChunk) :
    recvAll (framedRecv size decode) scheds (ms.flatMap encode) = (ms, .disconnected, []) := by
  induction scheds generalizing ms with
  | nil => simp at hn
  | cons s scheds ih =>
    have h := rxLoop_start size hs (ms.flatMap encode) s
    simp only at h
    rw [recvAll]
    generalize hr : rxLoop size (List.replicate size 0) 0 (ms.flatMap encode) s = r at h
    have hfr : framedRecv size decode (ms.flatMap encode) s = (decodeRx decode r.1, r.2) := by
      rw [framedRecv, hr]
    rw [hfr]
    obtain ⟨hnf, hch⟩ := hok s (by simp)
    rcases h with ⟨h1, h2, h3⟩ | ⟨h1, h2, h3⟩ | ⟨h1, x, hx, hf⟩ | ⟨h1, h2, h3⟩
    · cases ms with
      | nil => simp at h2; omega
      | cons m ms =>
        obtain ⟨hlen, hdec⟩ := hm m (by simp)
        have hm' := fun x (hx : x ∈ ms) => hm x (List.mem_cons_of_mem _ hx)
        have e1 : ((m :: ms).flatMap encode).take size = encode m := by
          simp [List.take_append, hlen]
        have e2 : ((m :: ms).flatMap encode).drop size = ms.flatMap encode := by
          simp [List.drop_append, hlen, List.drop_of_length_le]
        rw [h1, e1]
        simp only [decodeRx, hdec, h3, e2]
        rw [ih ms hm' (by simpa using hn) (fun sch hsch => hok sch (List.mem_cons_of_mem _ hsch))]
    · cases ms with
      | nil => simp [h1, h3, decodeRx]
      | cons m ms => simp [(hm m (by simp)).1] at h2; omega
    · simp [hnf x hx] at hf
    · omega

/-- Sending several messages puts exactly their images on the wire. -/
theorem sendAll_wire {α : Type} (encode : α → Bytes) (tx : α → List WrStep → Bytes → TxResult × Bytes)
    (l : List (α × List WrStep)) (htx : ∀ m s w, (m, s) ∈ l → (tx m s w).1 = .ok → (tx m s w).2 = w ++ encode m)
    (wire : Bytes) (h : (sendAll tx l wire).1 = .ok) :
    (sendAll tx l wire).2 = wire ++ (l.map Prod.fst).flatMap encode := by
  induction l generalizing wire with
  | nil => simp [sendAll]
  | cons a l ih =>
    obtain ⟨m, s⟩ := a
    rw [sendAll] at h ⊢
    have := htx m s wire (by simp)
    have htx' := fun m' s' w (hx : (m', s') ∈ l) => htx m' s' w (List.mem_cons_of_mem _ hx)
    generalize tx m s wire = r at this h ⊢
    obtain ⟨r1, r2⟩ := r
    cases r1 with
    | ok =>
      simp only at h ⊢
      have t := this rfl
      simp only at t
      rw [ih htx' _ h, t]; simp
    | err => simp at h
    | panic => simp at h
    | pending => simp at h

end Letmein
