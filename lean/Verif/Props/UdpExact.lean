import Verif.Spec.UdpExact
import Verif.Props.UdpFaults

/-!
# Properties C30 and C31, exactly

When the UDP server crashes and when a receive round fails, as equivalences.
-/

namespace Letmein.Props

open Letmein Spec

/-! ## C30 -/

/-- What the socket returns is a datagram for a full queue. -/
def ForFull (s : UdpSrv) (i : SockIn) : Prop := ∃ p data, i = .dgram p data ∧ 56 ≤ data.length ∧ QueueFull s p

/-- What the socket returns is taken. -/
def Taken (s : UdpSrv) (i : SockIn) : Prop := ∃ p data, i = .dgram p data ∧ ¬ Rejected s (.dgram p data)

/-- The counter after a read, given that it was `4 * n` too high. -/
structure ReadExact (s : UdpSrv) (max n : Nat) (i : SockIn) (r : R Unit) (d : UdpDisp) : Prop where
  crash : r = .panic ↔ Taken s i ∧ max * 4 < total s.disp.conn + 4 * n + 1
  over : ForFull s i → d.nrQueued = total d.conn + 4 * (n + 1)
  fine : r ≠ .panic → ¬ ForFull s i → d.nrQueued = total d.conn + 4 * n
  err : r = .err ↔ Rejected s i

theorem read_exact {max n : Nat} {s : UdpSrv} {d : UdpDisp} (hc : d.conn = s.disp.conn) (hm : d.maxConn = s.disp.maxConn)
    (hd : DispOk max d) (hn : d.nrQueued = total d.conn + 4 * n) (hmax : max * 4 ≤ USIZE_MAX) (i : SockIn) :
    ReadExact s max n i (d.tryRecv i).1 (d.tryRecv i).2 := by
  have hput : ∀ src data, 56 ≤ data.length → (connFor d src).rxQueue.length < 4 →
      (assocSet d.conn src { connFor d src with rxQueue := (connFor d src).rxQueue ++ [Arr.replicate MSG_SIZE 0] }).length ≤ d.maxConn →
      ¬ Rejected s (.dgram src data) := by
    intro src data h56 hq hs hr
    rcases hr with h | ⟨c, h1, h2⟩ | ⟨h1, h2⟩
    · omega
    · rw [← hc] at h1
      rw [connFor_of_some h1, h2] at hq
      omega
    · unfold Unconnected at h1
      rw [← hc] at h1 h2
      rw [← hm] at h2
      rw [assocSet, List.length_cons, assocErase_of_none h1] at hs
      omega
  have := tryRecv_cases hd i
  generalize (d.tryRecv i).1 = r at this
  generalize (d.tryRecv i).2 = d' at this
  cases this with
  | idle =>
    refine ⟨⟨by simp, ?_⟩, ?_, fun _ _ => hn, ⟨by simp, fun h => h.elim⟩⟩
    · rintro ⟨⟨_, _, h, _⟩, _⟩; cases h
    · rintro ⟨_, _, h, _⟩; cases h
  | fail =>
    refine ⟨⟨by simp, ?_⟩, ?_, fun _ _ => hn, ⟨fun _ => trivial, fun _ => rfl⟩⟩
    · rintro ⟨⟨_, _, h, _⟩, _⟩; cases h
    · rintro ⟨_, _, h, _⟩; cases h
  | short h =>
    refine ⟨⟨by simp, ?_⟩, ?_, fun _ _ => hn, ⟨fun _ => .inl h, fun _ => rfl⟩⟩
    · rintro ⟨⟨_, _, h1, h2⟩, _⟩; cases h1; exact absurd (.inl h) h2
    · rintro ⟨_, _, h1, h2, _⟩; cases h1; omega
  | @overflow src data c h hcc hq =>
    have hf := queueFull_of_get hc hcc hq
    have ht := total_erase hd.nodup hcc
    refine ⟨⟨by simp, ?_⟩, fun _ => ?_, fun _ hnf => absurd ⟨src, data, rfl, h, hf⟩ hnf, ⟨fun _ => .inr (.inl hf), fun _ => rfl⟩⟩
    · rintro ⟨⟨_, _, h1, h2⟩, _⟩; cases h1; exact absurd (.inr (.inl hf)) h2
    · show d.nrQueued = total (assocErase d.conn src) + 4 * (n + 1)
      omega
  | @full src data h hcc hl =>
    have hu : Unconnected s src := by unfold Unconnected; rw [← hc]; exact hcc
    have hrej : Rejected s (.dgram src data) := .inr (.inr ⟨hu, by rw [← hc, ← hm]; exact hl⟩)
    refine ⟨⟨by simp, ?_⟩, ?_, fun _ _ => hn, ⟨fun _ => hrej, fun _ => rfl⟩⟩
    · rintro ⟨⟨_, _, h1, h2⟩, _⟩; cases h1; exact absurd hrej h2
    · rintro ⟨_, _, h1, _, c, h2, _⟩
      cases h1
      unfold Unconnected at hu
      rw [h2] at hu; cases hu
  | @crash src data h hq hs hwhy =>
    have hnr := hput src data h hq hs
    rw [hd.max_eq] at hwhy
    refine ⟨⟨fun _ => ⟨⟨src, data, rfl, hnr⟩, ?_⟩, fun _ => rfl⟩, ?_, fun h => absurd rfl h, ⟨by simp, fun h => absurd h hnr⟩⟩
    · rw [← hc]; omega
    · rintro ⟨_, _, h1, _, h2⟩
      cases h1
      exact absurd (.inr (.inl h2)) hnr
  | @push src data b h hb hq hs hnq =>
    have hnr := hput src data h hq (by rw [assocSet, List.length_cons] at hs ⊢; exact hs)
    rw [hd.max_eq] at hnq
    refine ⟨⟨by simp, ?_⟩, ?_, fun _ _ => ?_, ⟨by simp, fun h => absurd h hnr⟩⟩
    · rintro ⟨_, h1⟩
      rw [← hc] at h1
      omega
    · rintro ⟨_, _, h1, _, h2⟩
      cases h1
      exact absurd (.inr (.inl h2)) hnr
    · show d.nrQueued + 1 = total (assocSet _ _ _) + 4 * n
      rw [total_push hd src b, hn]
      omega

/-- The counter after a read round of the main loop or of a session. -/
structure RoundExact (s : UdpSrv) (max n : Nat) (i : SockIn) (panics : Prop) (d : UdpDisp) : Prop where
  crash : panics ↔ Taken s i ∧ max * 4 < total s.disp.conn + 4 * n + 1
  over : ForFull s i → d.nrQueued = total d.conn + 4 * (n + 1)
  fine : ¬ panics → ¬ ForFull s i → d.nrQueued = total d.conn + 4 * n

theorem accept_exact {max n : Nat} {s : UdpSrv} {d d' : UdpDisp} {i : SockIn} {r : R (Option SocketAddr)}
    (h : AcceptCase max d i r d') (ht : ReadExact s max n i (d.tryRecv i).1 (d.tryRecv i).2) :
    RoundExact s max n i (r = .panic) d' := by
  cases h with
  | panic h => exact ⟨⟨fun _ => ht.crash.1 h, fun _ => rfl⟩, ht.over, fun h => absurd rfl h⟩
  | err h =>
    have hnp : (d.tryRecv i).1 ≠ .panic := by rw [h]; simp
    exact ⟨⟨by simp, fun hh => absurd (ht.crash.2 hh) hnp⟩, ht.over, fun _ => ht.fine hnp⟩
  | none h _ he =>
    have hnp : (d.tryRecv i).1 ≠ .panic := by rw [h]; simp
    have e1 : d'.nrQueued = (d.tryRecv i).2.nrQueued := by rw [he, (recvNotify_conn _).2.2.1]
    have e2 : d'.conn = (d.tryRecv i).2.conn := by rw [he, (recvNotify_conn _).1]
    exact ⟨⟨by simp, fun hh => absurd (ht.crash.2 hh) hnp⟩, by rw [e1, e2]; exact ht.over, fun _ => by rw [e1, e2]; exact ht.fine hnp⟩
  | some h _ _ _ _ _ h1 h2 _ _ =>
    have hnp : (d.tryRecv i).1 ≠ .panic := by rw [h]; simp
    exact ⟨⟨by simp, fun hh => absurd (ht.crash.2 hh) hnp⟩, by rw [h1, h2]; exact ht.over, fun _ => by rw [h1, h2]; exact ht.fine hnp⟩

theorem recv_exact {max n : Nat} {s : UdpSrv} {d d' : UdpDisp} {p : SocketAddr} {i : SockIn} {r : R (Option (Arr MSG_SIZE))}
    (hd : DispOk max d) (h : RecvFromCase d p i r d') (ht : ReadExact s max n i (d.tryRecv i).1 (d.tryRecv i).2) :
    RoundExact s max n i (r = .panic) d' ∧ (r = .err ↔ Rejected s i) := by
  have hd1 := tryRecv_ok hd i
  have hlow : (d.tryRecv i).1 = .ok () → total (d.tryRecv i).2.conn ≤ (d.tryRecv i).2.nrQueued := by
    intro hok
    by_cases hf : ForFull s i
    · have := ht.over hf; omega
    · have := ht.fine (by rw [hok]; simp) hf; omega
  cases h with
  | panic h => exact ⟨⟨⟨fun _ => ht.crash.1 h, fun _ => rfl⟩, ht.over, fun h => absurd rfl h⟩, by simp, fun hr => by
      have := ht.err.2 hr; rw [h] at this; cases this⟩
  | err h =>
    have hnp : (d.tryRecv i).1 ≠ .panic := by rw [h]; simp
    exact ⟨⟨⟨by simp, fun hh => absurd (ht.crash.2 hh) hnp⟩, ht.over, fun _ => ht.fine hnp⟩, fun _ => ht.err.1 h, fun _ => rfl⟩
  | none h _ he =>
    have hnp : (d.tryRecv i).1 ≠ .panic := by rw [h]; simp
    have e1 : d'.nrQueued = (d.tryRecv i).2.nrQueued := by rw [he, (recvNotify_conn _).2.2.1]
    have e2 : d'.conn = (d.tryRecv i).2.conn := by rw [he, (recvNotify_conn _).1]
    exact ⟨⟨⟨by simp, fun hh => absurd (ht.crash.2 hh) hnp⟩, by rw [e1, e2]; exact ht.over, fun _ => by rw [e1, e2]; exact ht.fine hnp⟩,
      by simp, fun hr => by have := ht.err.2 hr; rw [h] at this; cases this⟩
  | @underflow c h hc hq hn =>
    exfalso
    have := total_erase hd1.nodup hc
    have hpos : 0 < c.rxQueue.length := List.length_pos_iff.2 hq
    have := hlow h
    omega
  | @some _ c b q h hc hq hn he =>
    have hnp : (d.tryRecv i).1 ≠ .panic := by rw [h]; simp
    have e1 : d'.nrQueued = (d.tryRecv i).2.nrQueued - 1 := by rw [he, (recvNotify_conn _).2.2.1]
    have e2 : total d'.conn = total (d.tryRecv i).2.conn - 1 := by
      rw [he, (recvNotify_conn _).1]
      have := total_erase hd1.nodup hc
      simp only
      rw [total_set, this, hq]
      simp
    have e3 : 1 ≤ total (d.tryRecv i).2.conn := by
      have := total_erase hd1.nodup hc
      rw [this, hq]
      simp
      omega
    refine ⟨⟨⟨by simp, fun hh => absurd (ht.crash.2 hh) hnp⟩, fun hf => ?_, fun _ hf => ?_⟩,
      by simp, fun hr => by have := ht.err.2 hr; rw [h] at this; cases this⟩
    · have := ht.over hf; omega
    · have := ht.fine hnp hf; omega

theorem forFull_of_overflow {s : UdpSrv} {op : UdpOp} {i : SockIn} (hi : sockOf op = some i) : Overflow s op ↔ ForFull s i := by
  constructor
  · rintro ⟨p, b, h1, h2⟩
    obtain ⟨data, h3, h4, _⟩ := dgramOf_inv h1
    rw [hi] at h3
    cases h3
    exact ⟨p, data, rfl, h4, h2⟩
  · rintro ⟨p, data, rfl, h1, h2⟩
    exact ⟨p, data.take 56, by simp [dgramOf, hi, h1], h2⟩

theorem taken_of_takes {s : UdpSrv} {op : UdpOp} {i : SockIn} (hr : Reads s op) (hi : sockOf op = some i) :
    TakesDgram s op ↔ Taken s i := by
  constructor
  · rintro ⟨_, p, data, h1, h2⟩
    rw [hi] at h1
    cases h1
    exact ⟨p, data, rfl, h2⟩
  · rintro ⟨p, data, rfl, h2⟩
    exact ⟨hr, p, data, hi, h2⟩

/-- The counter and the crash, for one operation. -/
structure StepExact (max n : Nat) (s s' : UdpSrv) (op : UdpOp) : Prop where
  crash : s'.crashed = true ↔ (TakesDgram s op ∧ max * 4 < total s.disp.conn + 4 * n + 1) ∨ (EndsLast s op ∧ 0 < n)
  over : s'.crashed = false → Overruns s op → s'.disp.nrQueued = total s'.disp.conn + 4 * (n + 1)
  fine : s'.crashed = false → ¬ Overruns s op → s'.disp.nrQueued = total s'.disp.conn + 4 * n

theorem step_exact {max n : Nat} {s : UdpSrv} (hd : DispOk max s.disp) (hmax : max * 4 ≤ USIZE_MAX) (hc : s.crashed = false)
    (hn : s.disp.nrQueued = total s.disp.conn + 4 * n) {op : UdpOp} (ho : OrderOk s op) :
    StepExact max n s (udpStep s op).2 op := by
  have hnoEnd : ∀ {i}, sockOf op = some i → ¬ EndsLast s op := by
    rintro i hi ⟨sid, p, rfl, _⟩
    cases hi
  have hlift : ∀ {i panics} {s' : UdpSrv}, Reads s op → sockOf op = some i → RoundExact s max n i panics s'.disp →
      (s'.crashed = true ↔ panics) → StepExact max n s s' op := by
    intro i panics s' hr hi h hp
    refine ⟨?_, fun _ ho => h.over ((forFull_of_overflow hi).1 ho.2), fun hcr hno => h.fine (fun hx => ?_) (fun hx => hno ⟨hr, (forFull_of_overflow hi).2 hx⟩)⟩
    · rw [hp, h.crash, taken_of_takes hr hi]
      exact ⟨.inl, fun hx => hx.elim id (fun hx => absurd hx.1 (hnoEnd hi))⟩
    · rw [hp.2 hx] at hcr; cases hcr
  have hA : ∀ {w i r d'}, AcceptCase max (wakeAccept s.disp w) i r d' → RoundExact s max n i (r = .panic) d' := by
    intro w i r d' h
    refine accept_exact h (read_exact (wakeAccept_same _ _).1 (wakeAccept_same _ _).2.1 (wakeAccept_ok hd w) ?_ hmax i)
    rw [(wakeAccept_same _ _).1, (wakeAccept_same _ _).2.2]; exact hn
  have hR : ∀ {w i p r d'}, RecvFromCase (wakeRecv s.disp w) p i r d' → RoundExact s max n i (r = .panic) d' := by
    intro w i p r d' h
    refine (recv_exact (wakeRecv_ok hd w) h (read_exact (wakeRecv_same _ _).1 (wakeRecv_same _ _).2.1 (wakeRecv_ok hd w) ?_ hmax i)).1
    rw [(wakeRecv_same _ _).1, (wakeRecv_same _ _).2.2.1]; exact hn
  have hq : ∀ p, total s.disp.conn = (queueOf s.disp p).length + total (assocErase s.disp.conn p) := by
    intro p
    unfold queueOf
    cases hg : assocGet s.disp.conn p with
    | none => rw [assocErase_of_none hg]; simp
    | some c => rw [total_erase hd.nodup hg]; simp
  have hnil : ∀ p, assocErase s.disp.conn p = [] ↔ ∀ e ∈ s.disp.conn, e.1 = p := by
    intro p
    unfold assocErase
    rw [List.filter_eq_nil_iff]
    simp
  have hopen : ∀ {sid : Nat} {se : UdpSession}, s.sessions[sid]? = some se → se.closed = false → OpenSession s sid se.peer := by
    intro sid se h1 h2
    unfold OpenSession
    rw [h1, ← h2]
  have hstep := udpStep_cases hd op
  generalize (udpStep s op).1 = out at hstep
  generalize (udpStep s op).2 = s' at hstep
  cases hstep with
  | skip hwhy _ =>
    have hnr : ¬ Reads s op ∧ ¬ EndsLast s op := by
      rcases hwhy with h | ⟨sid, h1, h2⟩
      · rw [hc] at h; cases h
      · have hno : ∀ p, ¬ OpenSession s sid p := by
          intro p hp
          unfold OpenSession at hp
          rcases h2 with h2 | ⟨se, h2, h3⟩
          · rw [h2] at hp; cases hp
          · rw [h2] at hp; cases hp; cases h3
        rcases h1 with ⟨w, i, rfl⟩ | rfl
        · exact ⟨fun ⟨p, hp⟩ => hno p hp, hnoEnd rfl⟩
        · exact ⟨id, fun ⟨sid', p, h, hp, _⟩ => by cases h; exact hno p hp⟩
    refine ⟨⟨fun h => ?_, fun h => h.elim (fun h => absurd h.1.1 hnr.1) (fun h => absurd h.1 hnr.2)⟩, fun _ h => absurd h.1 hnr.1, fun _ _ => hn⟩
    rw [hc] at h; cases h
  | @reorder l =>
    refine ⟨⟨fun h => ?_, fun h => ?_⟩, fun _ h => h.1.elim, fun _ _ => ?_⟩
    · simp only at h; rw [hc] at h; cases h
    · rcases h with h | h
      · exact h.1.1.elim
      · obtain ⟨⟨_, _, h, _⟩, _⟩ := h; cases h
    · show s.disp.nrQueued = total l + 4 * n
      rw [hn, total_perm (List.Perm.symm ho)]
  | acceptPanic h => exact hlift trivial rfl (hA h) ⟨fun _ => rfl, fun _ => rfl⟩
  | acceptNone h => exact hlift trivial rfl (hA h) ⟨fun h => (by simp only at h; rw [hc] at h; cases h), fun h => by cases h⟩
  | acceptSome _ h => exact hlift trivial rfl (hA h) ⟨fun h => (by simp only at h; rw [hc] at h; cases h), fun h => by cases h⟩
  | recvPanic hs hcl h => exact hlift ⟨_, hopen hs hcl⟩ rfl (hR h) ⟨fun _ => rfl, fun _ => rfl⟩
  | recvNone hs hcl h => exact hlift ⟨_, hopen hs hcl⟩ rfl (hR h) ⟨fun h => (by simp only at h; rw [hc] at h; cases h), fun h => by cases h⟩
  | recvErr hs hcl h => exact hlift ⟨_, hopen hs hcl⟩ rfl (hR h) ⟨fun h => (by simp only at h; rw [hc] at h; cases h), fun h => by cases h⟩
  | recvSome _ hs hcl h => exact hlift ⟨_, hopen hs hcl⟩ rfl (hR h) ⟨fun h => (by simp only at h; rw [hc] at h; cases h), fun h => by cases h⟩
  | @closePanic sid se d' hs hcl h =>
    have := hq se.peer
    refine ⟨⟨fun _ => ?_, fun _ => rfl⟩, fun _ h => h.1.elim, fun h => by cases h⟩
    rcases disconnect_cases s.disp se.peer with ⟨h1, _⟩ | ⟨_, ⟨h1, h2, _⟩ | ⟨_, hx⟩⟩
    · omega
    · refine .inr ⟨⟨sid, se.peer, rfl, hopen hs hcl, (hnil _).1 h1⟩, ?_⟩
      rw [h1] at this
      have h0 : total ([] : List (SocketAddr × UdpConn)) = 0 := rfl
      omega
    · rw [hx] at h; cases h
  | @closeOk sid se d' hs hcl h =>
    have := hq se.peer
    refine ⟨⟨fun h => ?_, fun hw => ?_⟩, fun _ h => h.1.elim, fun _ _ => ?_⟩
    · simp only at h; rw [hc] at h; cases h
    · rcases hw with hw | ⟨⟨sid', p, h1, h2, h3⟩, hpos⟩
      · exact hw.1.1.elim
      · exfalso
        cases h1
        unfold OpenSession at h2
        rw [hs] at h2
        cases h2
        have h4 := (hnil p).2 h3
        simp only at this h
        rcases disconnect_cases s.disp p with ⟨_, hx⟩ | ⟨_, ⟨_, _, hx⟩ | ⟨h5, hx⟩⟩
        · rw [hx] at h; cases h
        · rw [hx] at h; cases h
        · have h6 := h5 h4
          rw [h4] at this
          have h0 : total ([] : List (SocketAddr × UdpConn)) = 0 := rfl
          omega
    · rcases disconnect_cases s.disp se.peer with ⟨_, hx⟩ | ⟨h5, ⟨_, _, hx⟩ | ⟨_, hx⟩⟩
      · rw [hx] at h; cases h
      · rw [hx] at h; cases h
      · rw [hx] at h; cases h
        show s.disp.nrQueued - (queueOf s.disp se.peer).length = total (assocErase s.disp.conn se.peer) + 4 * n
        omega

theorem run_exact {max : Nat} (hmax : max * 4 ≤ USIZE_MAX) : ∀ (ops : List UdpOp) (s : UdpSrv) (m n : Nat), DispOk max s.disp →
    s.disp.nrQueued = total s.disp.conn + 4 * m → OrderLegal s ops → OverrunCount s ops n →
    (udpRun s ops).2.crashed = false → (udpRun s ops).2.disp.nrQueued = total (udpRun s ops).2.disp.conn + 4 * (m + n) := by
  intro ops
  induction ops with
  | nil => intro s m n _ hn _ ho _; cases ho; exact hn
  | cons op ops ih =>
    intro s m n hd hn hl ho hcr
    have hdead : ∀ (ops : List UdpOp) (s : UdpSrv), s.crashed = true → (udpRun s ops).2.crashed = true := by
      intro ops
      induction ops with
      | nil => intro s h; exact h
      | cons op ops ih => intro s h; rw [udpRun]; exact ih _ (by rw [crashed_step h]; exact h)
    rw [udpRun] at hcr ⊢
    have hc : s.crashed = false := by
      refine Bool.eq_false_iff.2 fun h => ?_
      rw [hdead ops _ (by rw [crashed_step h]; exact h)] at hcr
      cases hcr
    have hc' : (udpStep s op).2.crashed = false := by
      refine Bool.eq_false_iff.2 fun h => ?_
      rw [hdead ops _ h] at hcr
      cases hcr
    have hst := step_exact hd hmax hc hn hl.1
    rcases ho with ⟨h1, k, rfl, h2⟩ | ⟨h1, h2⟩
    · have := ih _ (m + 1) k (disp_step hd hl.1) (hst.over hc' h1) hl.2 h2 hcr
      have hk : m + (k + 1) = m + 1 + k := by omega
      rw [hk]; exact this
    · exact ih _ m n (disp_step hd hl.1) (hst.fine hc' h1) hl.2 h2 hcr

/-- Every history has a number of overflows. -/
theorem overrunCount_exists : ∀ (ops : List UdpOp) (s : UdpSrv), ∃ n, OverrunCount s ops n
  | [], _ => ⟨0, rfl⟩
  | op :: ops, s => by
    obtain ⟨n, h⟩ := overrunCount_exists ops (udpStep s op).2
    by_cases ho : Overruns s op
    · exact ⟨n + 1, .inl ⟨ho, n, rfl, h⟩⟩
    · exact ⟨n, .inr ⟨ho, h⟩⟩

/-- **C30**: as long as the server runs, its counter of queued datagrams is too high by four for each queue that has overflowed. -/
theorem C30_counter (max : Nat) (hmax : max * 4 ≤ USIZE_MAX) (ops : List UdpOp) (hl : OrderLegal (UdpSrv.new max) ops)
    (n : Nat) (hn : OverrunCount (UdpSrv.new max) ops n) (hc : (udpRun (UdpSrv.new max) ops).2.crashed = false) :
    (udpRun (UdpSrv.new max) ops).2.disp.nrQueued = waitingDgrams (udpRun (UdpSrv.new max) ops).2 + 4 * n := by
  have := run_exact hmax ops (UdpSrv.new max) 0 n (DispOk.new max) rfl hl hn hc
  rw [this, Nat.zero_add]
  rfl

/-- **C30, exactly**: after a history with `n` overflowed queues, the next operation crashes the server if and only if it takes a
datagram although `4 * n` more than the waiting ones exhaust the limit, or ends a session, leaving no connection, and a queue has
overflowed before. -/
theorem C30_crash_iff (max : Nat) (hmax : max * 4 ≤ USIZE_MAX) (ops : List UdpOp) (hl : OrderLegal (UdpSrv.new max) ops)
    (n : Nat) (hn : OverrunCount (UdpSrv.new max) ops n) (hc : (udpRun (UdpSrv.new max) ops).2.crashed = false)
    (op : UdpOp) (ho : OrderOk (udpRun (UdpSrv.new max) ops).2 op) :
    (udpStep (udpRun (UdpSrv.new max) ops).2 op).2.crashed = true ↔
      (TakesDgram (udpRun (UdpSrv.new max) ops).2 op ∧ max * 4 ≤ waitingDgrams (udpRun (UdpSrv.new max) ops).2 + 4 * n) ∨
      (EndsLast (udpRun (UdpSrv.new max) ops).2 op ∧ 0 < n) := by
  have h := (step_exact (disp_run (DispOk.new max) hl) hmax hc (C30_counter max hmax ops hl n hn hc) ho).crash
  rw [h]
  have : total (udpRun (UdpSrv.new max) ops).2.disp.conn = waitingDgrams (udpRun (UdpSrv.new max) ops).2 := rfl
  rw [this]
  constructor
  · rintro (⟨h1, h2⟩ | h1)
    · exact .inl ⟨h1, by omega⟩
    · exact .inr h1
  · rintro (⟨h1, h2⟩ | h1)
    · exact .inl ⟨h1, by omega⟩
    · exact .inr h1

/-- **C30**, consequence: overflows use up the server. Once as many queues have overflowed as connections are allowed, the next
datagram the server takes, of whomever, crashes it. -/
theorem C30_worn_out (max : Nat) (hmax : max * 4 ≤ USIZE_MAX) (ops : List UdpOp) (hl : OrderLegal (UdpSrv.new max) ops)
    (n : Nat) (hn : OverrunCount (UdpSrv.new max) ops n) (hw : max ≤ n) (hc : (udpRun (UdpSrv.new max) ops).2.crashed = false)
    (op : UdpOp) (ht : TakesDgram (udpRun (UdpSrv.new max) ops).2 op) :
    (udpStep (udpRun (UdpSrv.new max) ops).2 op).2.crashed = true := by
  have ho : OrderOk (udpRun (UdpSrv.new max) ops).2 op := by
    cases op with
    | reorder l => exact ht.1.elim
    | _ => trivial
  exact (C30_crash_iff max hmax ops hl n hn hc op ho).2 (.inl ⟨ht, by omega⟩)

/-- Five datagrams of one host, read before its session reads any. -/
def overflowed : List UdpOp :=
  [.accept .readable (.dgram exPeer (exData 1)), .accept .readable (.dgram exPeer (exData 2)),
   .accept .readable (.dgram exPeer (exData 3)), .accept .readable (.dgram exPeer (exData 4)),
   .accept .readable (.dgram exPeer (exData 5))]

theorem overflowed_count : OverrunCount (UdpSrv.new 1) overflowed 1 := by
  have hq : ∀ s op, (∀ e ∈ s.disp.conn, e.2.rxQueue.length ≠ 4) → ¬ Overruns s op := by
    rintro s op h ⟨_, p, b, _, c, hc, hl⟩
    exact h _ (assocGet_mem hc) hl
  refine .inr ⟨hq _ _ (by decide +kernel), .inr ⟨hq _ _ (by decide +kernel), .inr ⟨hq _ _ (by decide +kernel),
    .inr ⟨hq _ _ (by decide +kernel), .inl ⟨⟨trivial, exPeer, exData 5, by decide +kernel, ?_⟩, 0, rfl, rfl⟩⟩⟩⟩⟩
  unfold QueueFull
  have : ((assocGet (udpRun (UdpSrv.new 1) (overflowed.take 4)).2.disp.conn exPeer).map (fun c => c.rxQueue.length)) = some 4 := by decide +kernel
  obtain ⟨c, h1, h2⟩ := Option.map_eq_some_iff.1 this
  exact ⟨c, h1, h2⟩

/-- With one connection allowed, one overflow: the server still runs, counts four datagrams though none waits, and the next
datagram it takes, of another host, crashes it. -/
example : OrderLegal (UdpSrv.new 1) overflowed ∧ OverrunCount (UdpSrv.new 1) overflowed 1 ∧
    (udpRun (UdpSrv.new 1) overflowed).2.crashed = false ∧ (udpRun (UdpSrv.new 1) overflowed).2.disp.nrQueued = 4 ∧
    waitingDgrams (udpRun (UdpSrv.new 1) overflowed).2 = 0 ∧
    TakesDgram (udpRun (UdpSrv.new 1) overflowed).2 (.accept .readable (.dgram exPeer2 (exData 6))) ∧
    EndsLast (udpRun (UdpSrv.new 1) overflowed).2 (.close 0) := by
  have hnil : (udpRun (UdpSrv.new 1) overflowed).2.disp.conn = [] := by decide +kernel
  refine ⟨⟨trivial, trivial, trivial, trivial, trivial, trivial⟩, overflowed_count, by decide +kernel, by decide +kernel, by decide +kernel,
    ⟨trivial, exPeer2, exData 6, rfl, ?_⟩, 0, exPeer, rfl, by unfold OpenSession; decide +kernel, by rw [hnil]; simp⟩
  rintro (h | ⟨c, h, _⟩ | ⟨_, h⟩)
  · revert h; decide +kernel
  · rw [hnil] at h; cases h
  · revert h; decide +kernel

/-! ## C31 -/

/-- **C31, exactly**: a receive round of a session fails if and only if what it reads from the socket is rejected. -/
theorem C31_failure_iff {max : Nat} (hmax : max * 4 ≤ USIZE_MAX) {s : UdpSrv} (hs : UdpReach max s) (hc : s.crashed = false)
    {sid : Nat} {p : SocketAddr} (ho : OpenSession s sid p) (w : Wake) (i : SockIn) :
    (udpStep s (.recv sid w i)).1 = .failed ↔ Rejected s i := by
  refine ⟨C31_failure_cause_partial hs ho w i, fun hr => ?_⟩
  have hd := hs.ok
  obtain ⟨n, hn⟩ : ∃ n, s.disp.nrQueued = total s.disp.conn + 4 * n := by
    obtain ⟨ops, h1, rfl⟩ := hs
    obtain ⟨n, h2⟩ := overrunCount_exists ops (UdpSrv.new max)
    exact ⟨n, C30_counter max hmax ops h1 n h2 hc⟩
  have hx : ∀ {q r d'}, RecvFromCase (wakeRecv s.disp w) q i r d' → r = .err := by
    intro q r d' h
    refine (recv_exact (s := s) (n := n) (wakeRecv_ok hd w) h
      (read_exact (wakeRecv_same _ _).1 (wakeRecv_same _ _).2.1 (wakeRecv_ok hd w) ?_ hmax i)).2.2 hr
    rw [(wakeRecv_same _ _).1, (wakeRecv_same _ _).2.2.1]; exact hn
  unfold OpenSession at ho
  have hstep := udpStep_cases hd (.recv sid w i)
  generalize (udpStep s (.recv sid w i)).1 = out at hstep
  generalize (udpStep s (.recv sid w i)).2 = s' at hstep
  cases hstep with
  | skip hwhy _ =>
    rcases hwhy with h | ⟨sid', h1 | h1, h2⟩
    · rw [hc] at h; cases h
    · obtain ⟨w', i', h1⟩ := h1
      cases h1
      rcases h2 with h2 | ⟨se, h2, h3⟩
      · rw [h2] at ho; cases ho
      · rw [h2] at ho; cases ho; cases h3
    · cases h1
  | recvPanic _ _ h => have := hx h; cases this
  | recvNone _ _ h => have := hx h; cases this
  | recvErr _ _ h => rfl
  | recvSome _ _ _ h => have := hx h; cases this

/-- Both sides hold for a short datagram of somebody else. -/
example : UdpReach 8 oneSession ∧ oneSession.crashed = false ∧ OpenSession oneSession 0 exPeer ∧ Rejected oneSession (.dgram exPeer2 []) ∧
    ¬ Rejected oneSession (.dgram exPeer2 (exData 1)) := by
  refine ⟨⟨[.accept .readable (.dgram exPeer (exData 1))], ⟨trivial, trivial⟩, rfl⟩, by decide +kernel,
    by unfold OpenSession; decide +kernel, .inl (by decide), ?_⟩
  rintro (h | ⟨c, h, _⟩ | ⟨_, h⟩)
  · revert h; decide +kernel
  · have : assocGet oneSession.disp.conn exPeer2 = none := by decide +kernel
    rw [this] at h; cases h
  · revert h; decide +kernel

/-- **C31**, consequence: on a server with an open session, anybody who can send to the port can fail its next receive round. -/
theorem C31_anybody_fails {max : Nat} (hmax : max * 4 ≤ USIZE_MAX) {s : UdpSrv} (hs : UdpReach max s) (hc : s.crashed = false)
    {sid : Nat} {p : SocketAddr} (ho : OpenSession s sid p) (w : Wake) (q : SocketAddr) :
    (udpStep s (.recv sid w (.dgram q []))).1 = .failed :=
  (C31_failure_iff hmax hs hc ho w _).2 (.inl (by decide))

end Letmein.Props
