import Verif.Props.UdpSessions
import Verif.Props.ClientTrust
import Verif.Props.Exact3
import Verif.Props.UdpWake

/-!
# Exact versions of partial properties: C51, C53, C69
-/

namespace Letmein

namespace Spec

/-- The peer's datagram is dropped together with its connection, because its queue is full. -/
def Overflows (s : UdpSrv) (i : SockIn) (p : SocketAddr) : Prop := ∃ data, i = .dgram p data ∧ 56 ≤ data.length ∧ QueueFull s p

/-- Nothing new: there is no datagram, or it belongs to a connection that has been accepted. -/
def NothingNew (s : UdpSrv) : SockIn → Prop
  | .dgram p _ => ∃ c, assocGet s.disp.conn p = some c ∧ c.accepted = true
  | _ => True

/-- Somebody waits to be accepted and nothing will wake the accepting task. -/
def Unnoticed (s : UdpSrv) : Prop := (∃ p, Waiting s p) ∧ s.disp.acceptSig = false

/-- Some datagram waits in a queue and nothing will wake the receiving tasks. -/
def Unannounced (s : UdpSrv) : Prop := (∃ p, queueOf s.disp p ≠ []) ∧ s.disp.recvSig = false

end Spec

namespace Props

open Letmein Prog Spec

/-- What `tryRecv` does to waiting connections and to the signal. -/
theorem tryRecv_exact {max : Nat} {s : UdpSrv} {d : UdpDisp} (hc : d.conn = s.disp.conn) (hm : d.maxConn = s.disp.maxConn) (hd : DispOk max d)
    (i : SockIn) :
    ((d.tryRecv i).1 = .err ↔ Rejected s i) ∧
    (Rejected s i → (d.tryRecv i).2.acceptSig = d.acceptSig ∧ (∀ p, Overflows s i p → flag (d.tryRecv i).2 p = none) ∧
      ∀ p, ¬ Overflows s i p → flag (d.tryRecv i).2 p = flag d p) ∧
    ((d.tryRecv i).1 = .ok () → (NothingNew s i → (d.tryRecv i).2.acceptSig = d.acceptSig) ∧ (¬ NothingNew s i → (d.tryRecv i).2.acceptSig = true)) := by
  have := tryRecv_cases hd i
  generalize (d.tryRecv i).1 = r at this
  generalize (d.tryRecv i).2 = d' at this
  have nof : ∀ src data, ¬ QueueFull s src → ∀ p, ¬ Overflows s (.dgram src data) p := by
    rintro src data hq p ⟨data', he, _, hf⟩
    cases he
    exact hq hf
  cases this with
  | idle => simp [Rejected, NothingNew]
  | fail =>
    refine ⟨by simp [Rejected], fun _ => ⟨rfl, ?_, fun _ _ => rfl⟩, by simp⟩
    rintro p ⟨_, he, _⟩
    cases he
  | @short src data h =>
    refine ⟨by simp [Rejected, h], fun _ => ⟨rfl, ?_, fun _ _ => rfl⟩, by simp⟩
    rintro p ⟨_, he, hl, _⟩
    cases he
    omega
  | @overflow src data c h hcc hq =>
    have hf : QueueFull s src := queueFull_of_get hc hcc hq
    refine ⟨by simp [Rejected, hf], fun _ => ⟨rfl, ?_, ?_⟩, by simp⟩
    · rintro p ⟨_, he, _⟩
      cases he
      unfold flag
      simp only [assocGet_erase_self]
      rfl
    · intro p hp
      have hne : p ≠ src := by
        rintro rfl
        exact hp ⟨data, rfl, h, hf⟩
      unfold flag
      simp only [assocGet_erase_ne _ hne]
  | @full src data h hcc hl =>
    rw [hc] at hcc hl
    rw [hm] at hl
    refine ⟨by simp [Rejected, Unconnected, hcc, hl], fun _ => ⟨rfl, ?_, fun _ _ => rfl⟩, by simp⟩
    rintro p ⟨_, he, _, c, h1, _⟩
    cases he
    rw [hcc] at h1
    cases h1
  | @crash src data h hq hs hn =>
    have hnr : ¬ Rejected s (.dgram src data) := by
      rintro (h1 | ⟨c, h1, h2⟩ | ⟨h1, h2⟩)
      · omega
      · unfold connFor at hq
        rw [hc, h1] at hq
        simp only [Option.getD_some] at hq
        omega
      · unfold Unconnected at h1
        rw [← hc] at h1 h2
        rw [assocSet_length_of_none h1] at hs
        omega
    exact ⟨by simp [hnr], fun h => absurd h hnr, by simp⟩
  | @push src data b h hb hq hs hn =>
    have hnr : ¬ Rejected s (.dgram src data) := by
      rintro (h1 | ⟨c, h1, h2⟩ | ⟨h1, h2⟩)
      · omega
      · unfold connFor at hq
        rw [hc, h1] at hq
        simp only [Option.getD_some] at hq
        omega
      · unfold Unconnected at h1
        rw [← hc] at h1 h2
        rw [assocSet_length_of_none h1] at hs
        omega
    refine ⟨by simp [hnr], fun h => absurd h hnr, fun _ => ⟨?_, ?_⟩⟩
    · rintro ⟨c, h1, h2⟩
      simp only [pushed, connFor, hc, h1, Option.getD_some, h2]
      simp
    · intro hno
      simp only [pushed]
      have : (connFor d src).accepted = false := by
        cases hx : (connFor d src).accepted with
        | false => rfl
        | true =>
          exfalso
          apply hno
          unfold connFor at hx
          rw [hc] at hx
          cases hg : assocGet s.disp.conn src with
          | none => rw [hg] at hx; simp at hx
          | some c => rw [hg] at hx; exact ⟨c, hg, by simpa using hx⟩
      rw [this]
      simp

/-- **C51** (exact). Let everything be in order: whoever waits, the accepting task will be woken. Then an operation after which somebody waits
unnoticed is exactly a round of the accepting task that was woken by the signal and reads something that is rejected, while somebody waits; or
that reads nothing new, while two are waiting (it takes one of them only). -/
theorem C51_lost_iff {max : Nat} {s : UdpSrv} (hs : UdpReach max s) (hok : ¬ Unnoticed s) {op : UdpOp} (ho : OrderOk s op)
    (hal : (udpStep s op).2.crashed = false) :
    Unnoticed (udpStep s op).2 ↔ ∃ i, op = .accept .changed i ∧
      ((Rejected s i ∧ ∃ p, Waiting s p ∧ ¬ Overflows s i p) ∨
        (¬ Rejected s i ∧ NothingNew s i ∧ ∃ p q, p ≠ q ∧ Waiting s p ∧ Waiting s q)) := by
  have hd := hs.ok
  have hsig : ∀ p, flag s.disp p = some false → s.disp.acceptSig = true := by
    intro p hp
    cases hx : s.disp.acceptSig with
    | true => rfl
    | false => exact absurd ⟨⟨p, flag_waiting.2 hp⟩, hx⟩ hok
  have hT : ∀ {d : UdpDisp} (i : SockIn) (p : SocketAddr), d.conn = s.disp.conn → DispOk max d →
      flag (d.tryRecv i).2 p = some false → (d.tryRecv i).2.acceptSig = false → flag s.disp p = some false := by
    intro d i p hc hd h h0
    rcases tryRecv_flag (s := s) hc hd i p with h1 | ⟨h1, _⟩ | ⟨_, _, _, h1⟩
    · rw [h1, flag_congr hc] at h; exact h
    · rw [h1] at h; cases h
    · rw [h0] at h1; cases h1
  have hcases := udpStep_cases hd op
  generalize (udpStep s op).1 = out at hcases
  generalize (udpStep s op).2 = s' at hcases hal ⊢
  have hR : ∀ {d' : UdpDisp} {w : Wake} {i : SockIn} {q : SocketAddr} {r : R (Option (Arr MSG_SIZE))}, RecvFromCase (wakeRecv s.disp w) q i r d' →
      ∀ p, flag d' p = some false → d'.acceptSig = false → False := by
    intro d' w i q r hc p hp h0
    obtain ⟨h1, h2⟩ := recv_flag hc
    rw [h1] at hp
    rw [h2] at h0
    have h3 : (wakeRecv s.disp w).conn = s.disp.conn := by unfold wakeRecv; split <;> rfl
    have h4 : (wakeRecv s.disp w).acceptSig = s.disp.acceptSig := by unfold wakeRecv; split <;> rfl
    have h5 : DispOk max (wakeRecv s.disp w) := wakeRecv_ok hd w
    have h6 := hsig p (hT i p h3 h5 hp h0)
    rw [tryRecv_sig h5 i (by rw [h4]; exact h6)] at h0
    cases h0
  have hW : ∀ {w : Wake} {i : SockIn} {p : SocketAddr}, flag s.disp p = some false → ((wakeAccept s.disp w).tryRecv i).2.acceptSig = false → w = .changed := by
    intro w i p hp h0
    cases w with
    | changed => rfl
    | readable =>
      have h6 := hsig p hp
      have : ((wakeAccept s.disp .readable).tryRecv i).2.acceptSig = true := tryRecv_sig (wakeAccept_ok hd _) i (by simpa [wakeAccept] using h6)
      rw [this] at h0; cases h0
  have hno : ∀ {op' : UdpOp}, (∀ i, op' ≠ .accept .changed i) → ¬ Unnoticed s' → (Unnoticed s' ↔ ∃ i, op' = .accept .changed i ∧
      ((Rejected s i ∧ ∃ p, Waiting s p ∧ ¬ Overflows s i p) ∨
        (¬ Rejected s i ∧ NothingNew s i ∧ ∃ p q, p ≠ q ∧ Waiting s p ∧ Waiting s q))) := by
    intro op' h1 h2
    exact ⟨fun h => absurd h h2, fun ⟨i, h, _⟩ => absurd h (h1 i)⟩
  have hsig0 : ∀ i, Rejected s i ∨ (NothingNew s i ∧ ((wakeAccept s.disp .changed).tryRecv i).1 = .ok ()) →
      ((wakeAccept s.disp .changed).tryRecv i).2.acceptSig = false := by
    intro i h
    obtain ⟨_, e2, e3⟩ := tryRecv_exact (s := s) (wakeAccept_same s.disp .changed).1 (wakeAccept_same s.disp .changed).2.1 (wakeAccept_ok hd .changed) i
    rcases h with h | ⟨h, h'⟩
    · rw [(e2 h).1]; rfl
    · rw [(e3 h').1 h]; rfl
  cases hcases with
  | skip hc _ =>
    refine hno ?_ hok
    intro i h
    rcases hc with hc | ⟨sid, h1, _⟩
    · rw [hc] at hal; cases hal
    · rcases h1 with ⟨w, i', h1⟩ | h1 <;> rw [h1] at h <;> cases h
  | @reorder l =>
    refine hno (fun i h => by cases h) ?_
    rintro ⟨⟨p, hp⟩, h0⟩
    rw [flag_waiting] at hp
    unfold flag at hp
    simp only at hp
    rw [assocGet_perm hd.nodup ho] at hp
    have := hsig p hp
    rw [this] at h0
    cases h0
  | acceptPanic _ => cases hal
  | @acceptNone w i d' hc =>
    obtain ⟨e1, e2, e3⟩ := tryRecv_exact (s := s) (wakeAccept_same s.disp w).1 (wakeAccept_same s.disp w).2.1 (wakeAccept_ok hd w) i
    cases hc with
    | err he =>
      have hrej := e1.1 he
      constructor
      · rintro ⟨⟨p, hp⟩, h0⟩
        rw [flag_waiting] at hp
        simp only at hp h0
        have hps := hT i p (wakeAccept_same _ _).1 (wakeAccept_ok hd w) hp h0
        obtain rfl := hW hps h0
        refine ⟨i, rfl, .inl ⟨hrej, p, flag_waiting.2 hps, ?_⟩⟩
        intro hov
        rw [(e2 hrej).2.1 p hov] at hp
        cases hp
      · rintro ⟨i', h, h'⟩
        cases h
        rcases h' with ⟨_, p, hp, hov⟩ | ⟨h', _⟩
        · refine ⟨⟨p, flag_waiting.2 ?_⟩, hsig0 i (.inl hrej)⟩
          simp only
          rw [(e2 hrej).2.2 p hov, flag_congr (wakeAccept_same _ _).1]
          exact flag_waiting.1 hp
        · exact absurd hrej h'
    | none hr hall he =>
      constructor
      · rintro ⟨⟨p, c, hc, ha⟩, _⟩
        simp only [he, (recvNotify_conn _).1] at hc
        have := hall _ (assocGet_mem hc)
        rw [ha] at this
        cases this
      · rintro ⟨i', h, h'⟩
        cases h
        rcases h' with ⟨h', _⟩ | ⟨hnr, hnn, p, q, -, hp, -⟩
        · rw [e1.2 h'] at hr; cases hr
        · exfalso
          rcases tryRecv_flag (s := s) (wakeAccept_same s.disp .changed).1 (wakeAccept_ok hd .changed) i p with h1 | ⟨_, h1, _⟩ | ⟨h1, _⟩
          · rw [flag_congr (wakeAccept_same _ _).1, flag_waiting.1 hp] at h1
            have hw : Waiting { s with disp := ((wakeAccept s.disp .changed).tryRecv i).2 } p := flag_waiting.2 h1
            obtain ⟨c, hc, ha⟩ := hw
            have := hall _ (assocGet_mem hc)
            rw [ha] at this
            cases this
          · rw [h1] at hr; cases hr
          · rw [flag_congr (wakeAccept_same _ _).1, flag_waiting.1 hp] at h1
            cases h1
  | @acceptSome w i q d' _ hc =>
    obtain ⟨e1, e2, e3⟩ := tryRecv_exact (s := s) (wakeAccept_same s.disp w).1 (wakeAccept_same s.disp w).2.1 (wakeAccept_ok hd w) i
    have hr : ((wakeAccept s.disp w).tryRecv i).1 = .ok () := by cases hc with | some h _ _ _ _ _ _ _ _ _ => exact h
    have hnr : ¬ Rejected s i := fun h => by rw [e1.2 h] at hr; cases hr
    rcases accept_flag hc with ⟨q', hq', hwait, hacc, hoth⟩ | ⟨hx, _⟩
    · cases hq'
      constructor
      · rintro ⟨⟨p, hp⟩, h0⟩
        rw [flag_waiting] at hp
        simp only at hp h0
        rw [accept_sig hc] at h0
        have hpq : p ≠ q := by rintro rfl; rw [hacc] at hp; cases hp
        rw [hoth p hpq] at hp
        have hps := hT i p (wakeAccept_same _ _).1 (wakeAccept_ok hd w) hp h0
        have hqs := hT i q (wakeAccept_same _ _).1 (wakeAccept_ok hd w) hwait h0
        obtain rfl := hW hps h0
        refine ⟨i, rfl, .inr ⟨hnr, ?_, p, q, hpq, flag_waiting.2 hps, flag_waiting.2 hqs⟩⟩
        exact Classical.byContradiction fun hn => by rw [(e3 hr).2 hn] at h0; cases h0
      · rintro ⟨i', h, h'⟩
        cases h
        rcases h' with ⟨h', _⟩ | ⟨-, hnn, p1, p2, hne, hp1, hp2⟩
        · exact absurd h' hnr
        · have stay : ∀ p, p ≠ q → Waiting s p → flag d' p = some false := by
            intro p hpq hp
            rw [hoth p hpq]
            rcases tryRecv_flag (s := s) (wakeAccept_same s.disp .changed).1 (wakeAccept_ok hd .changed) i p with h1 | ⟨_, h1, _⟩ | ⟨h1, _⟩
            · rw [h1, flag_congr (wakeAccept_same _ _).1]; exact flag_waiting.1 hp
            · rw [h1] at hr; cases hr
            · rw [flag_congr (wakeAccept_same _ _).1, flag_waiting.1 hp] at h1
              cases h1
          refine ⟨?_, ?_⟩
          · by_cases h1 : p1 = q
            · exact ⟨p2, flag_waiting.2 (stay p2 (fun h => hne (h1.trans h.symm)) hp2)⟩
            · exact ⟨p1, flag_waiting.2 (stay p1 h1 hp1)⟩
          · simp only
            rw [accept_sig hc]
            exact hsig0 i (.inr ⟨hnn, hr⟩)
    · exact absurd rfl (hx q)
  | recvPanic _ _ _ => cases hal
  | recvNone _ _ hc => exact hno (fun i h => by cases h) (fun ⟨⟨p, hp⟩, h0⟩ => hR hc p (flag_waiting.1 hp) h0)
  | recvErr _ _ hc => exact hno (fun i h => by cases h) (fun ⟨⟨p, hp⟩, h0⟩ => hR hc p (flag_waiting.1 hp) h0)
  | recvSome _ _ _ hc => exact hno (fun i h => by cases h) (fun ⟨⟨p, hp⟩, h0⟩ => hR hc p (flag_waiting.1 hp) h0)
  | closePanic _ _ _ => cases hal
  | @closeOk sid se d' hse hopen hc =>
    refine hno (fun i h => by cases h) ?_
    rintro ⟨⟨p, hp⟩, h0⟩
    rw [flag_waiting] at hp
    simp only at hp h0
    have hf := disconnect_flag hc
    rw [hf.2.2] at h0
    by_cases hpq : p = se.peer
    · subst hpq; rw [hf.1] at hp; cases hp
    · rw [hf.2.1 p hpq] at hp
      rw [hsig p hp] at h0
      cases h0

/-- Two are waiting, and the round woken by the signal reads nothing: one stays behind. -/
example : UdpReach 8 (udpRun (UdpSrv.new 8) (lostHistory.take 3)).2 ∧ ¬ Unnoticed (udpRun (UdpSrv.new 8) (lostHistory.take 3)).2 ∧
    (udpStep (udpRun (UdpSrv.new 8) (lostHistory.take 3)).2 (.accept .changed .wouldBlock)).2.crashed = false ∧
    Unnoticed (udpStep (udpRun (UdpSrv.new 8) (lostHistory.take 3)).2 (.accept .changed .wouldBlock)).2 :=
  ⟨⟨lostHistory.take 3, ⟨trivial, trivial, trivial, trivial⟩, rfl⟩, fun h => absurd h.2 (by decide +kernel), by decide +kernel,
    ⟨exPeer2, flag_waiting.2 (by decide +kernel)⟩, by decide +kernel⟩

theorem total_pos_iff {max : Nat} {d : UdpDisp} (hd : DispOk max d) : 0 < total d.conn ↔ ∃ p, queueOf d p ≠ [] := by
  constructor
  · intro h
    refine Classical.byContradiction fun hn => ?_
    have hall : ∀ e ∈ d.conn, e.2.rxQueue = [] := by
      rintro ⟨p, c⟩ he
      refine Classical.byContradiction fun hq => hn ⟨p, ?_⟩
      unfold queueOf
      rw [assocGet_of_mem hd.nodup he]
      exact fun h => hq (List.map_eq_nil_iff.1 h)
    have : total d.conn = 0 := by
      unfold total
      rw [List.sum_eq_zero_iff_forall_eq_nat]
      intro x hx
      obtain ⟨e, he, rfl⟩ := List.mem_map.1 hx
      rw [hall e he]; rfl
    omega
  · rintro ⟨p, hq⟩
    unfold queueOf at hq
    cases hg : assocGet d.conn p with
    | none => rw [hg] at hq; exact absurd rfl hq
    | some c =>
      rw [hg] at hq
      exact total_pos hg (fun he => hq (by simp only [he, List.map_nil]))

/-- The invariant without the announcement. -/
structure Counted (max : Nat) (s : UdpSrv) : Prop where
  ok : DispOk max s.disp
  alive : s.crashed = false
  counted : s.disp.nrQueued = total s.disp.conn
  excl : Exclusive s
  data : WaitingHasData s.disp

theorem counted_run {max : Nat} (hmax : max * 4 ≤ USIZE_MAX) (ops : List UdpOp) (s : UdpSrv) (h : Counted max s) (hl : OrderLegal s ops)
    (hov : NoOverflow s ops) : Counted max (udpRun s ops).2 := by
  induction ops generalizing s with
  | nil => exact h
  | cons op ops ih =>
    have hcnt := step_counted h.ok hmax h.alive h.counted hl.1 hov.1
    exact ih _ ⟨disp_step h.ok hl.1, hcnt.1, hcnt.2, step_exclusive h.ok h.excl hl.1 hov.1 hcnt.1, step_data h.ok h.excl h.data hl.1 hov.1 hcnt.1⟩
      hl.2 hov.2

theorem counted_new (max : Nat) : Counted max (UdpSrv.new max) :=
  ⟨DispOk.new max, rfl, rfl,
    ⟨by intro i j p hi; simp [OpenSession, UdpSrv.new] at hi, by intro i p hi; simp [OpenSession, UdpSrv.new] at hi⟩,
    (by intro p c hc; cases hc)⟩

/-- **C53** (exact). In a history without queue overflow, let everything be in order: if datagrams are queued, the receiving tasks will be woken.
Then an operation (without overflow) after which a datagram is queued unannounced is exactly a receive round of a running session that was woken by
the signal and reads something that is rejected, while something is queued, for whomever. -/
theorem C53_deaf_iff (max : Nat) (hmax : max * 4 < 2 ^ 64) (ops : List UdpOp) (hl : OrderLegal (UdpSrv.new max) ops)
    (hov : NoOverflow (UdpSrv.new max) ops) (hok : ¬ Unannounced (udpRun (UdpSrv.new max) ops).2) {op : UdpOp}
    (ho : OrderOk (udpRun (UdpSrv.new max) ops).2 op) (hovo : ¬ Overflow (udpRun (UdpSrv.new max) ops).2 op) :
    Unannounced (udpStep (udpRun (UdpSrv.new max) ops).2 op).2 ↔ ∃ sid i p, op = .recv sid .changed i ∧
      OpenSession (udpRun (UdpSrv.new max) ops).2 sid p ∧ Rejected (udpRun (UdpSrv.new max) ops).2 i ∧
      ∃ q, queueOf (udpRun (UdpSrv.new max) ops).2.disp q ≠ [] := by
  have hmax : max * 4 ≤ USIZE_MAX := Nat.le_sub_one_of_lt hmax
  have h := counted_run hmax ops _ (counted_new max) hl hov
  generalize (udpRun (UdpSrv.new max) ops).2 = s at *
  have hsig : 0 < total s.disp.conn → s.disp.recvSig = true := by
    intro h0
    cases hx : s.disp.recvSig with
    | true => rfl
    | false => exact absurd ⟨(total_pos_iff h.ok).1 h0, hx⟩ hok
  have hann : Announced max s := ⟨h.ok, h.alive, h.counted, h.excl, h.data, hsig⟩
  by_cases hr : ∃ sid w i, op = .recv sid w i ∧ Rejected s i
  · obtain ⟨sid, w, i, rfl, hrej⟩ := hr
    have hkeep : ∀ p, ¬ Overflows s i p := by
      rintro p ⟨data, rfl, h56, hf⟩
      exact hovo ⟨p, _, dgramOf_of_recv h56, hf⟩
    have hsame : ((wakeRecv s.disp w).tryRecv i).2 = wakeRecv s.disp w ∧ ((wakeRecv s.disp w).tryRecv i).1 = .err := by
      have he := (tryRecv_exact (s := s) (wakeRecv_same s.disp w).1 (wakeRecv_same s.disp w).2.1 (wakeRecv_ok h.ok w) i).1.2 hrej
      refine ⟨?_, he⟩
      have := tryRecv_cases (wakeRecv_ok h.ok w) i
      generalize ((wakeRecv s.disp w).tryRecv i).1 = r at this he
      generalize ((wakeRecv s.disp w).tryRecv i).2 = d' at this
      cases this with
      | idle => rfl
      | fail => rfl
      | short _ => rfl
      | overflow h56 hc hq => exact absurd ⟨_, rfl, h56, queueFull_of_get (wakeRecv_same s.disp w).1 hc hq⟩ (hkeep _)
      | full _ _ _ => rfl
      | crash _ _ _ _ => cases he
      | push _ _ _ _ _ => cases he
    have hcases := udpStep_cases h.ok (.recv sid w i)
    have hal := (step_counted h.ok hmax h.alive h.counted ho hovo).1
    generalize (udpStep s (.recv sid w i)).1 = out at hcases
    generalize (udpStep s (.recv sid w i)).2 = s' at hcases hal ⊢
    cases hcases with
    | skip hc _ =>
      refine ⟨fun h => absurd h hok, ?_⟩
      rintro ⟨sid', i', p, he, hopen, _⟩
      cases he
      rcases hc with hc | ⟨sid', h1, h2⟩
      · rw [h.alive] at hc; cases hc
      · rcases h1 with ⟨_, _, h1⟩ | h1
        · cases h1
          unfold OpenSession at hopen
          rw [hopen] at h2
          rcases h2 with h2 | ⟨se, h2, h3⟩
          · cases h2
          · cases h2; cases h3
        · cases h1
    | recvPanic _ _ _ => cases hal
    | recvNone _ _ hc =>
      exfalso
      cases hc with
      | none h1 _ _ => rw [hsame.2] at h1; cases h1
    | recvSome _ _ _ hc =>
      exfalso
      cases hc with
      | some h1 _ _ _ _ => rw [hsame.2] at h1; cases h1
    | @recvErr _ _ _ se _ hse hopen hc =>
      cases hc
      constructor
      · rintro ⟨⟨q, hq⟩, h0⟩
        simp only [hsame.1] at hq h0
        unfold queueOf at hq
        rw [(wakeRecv_same s.disp w).1] at hq
        have hq' : queueOf s.disp q ≠ [] := hq
        cases w with
        | readable =>
          have : s.disp.recvSig = false := h0
          rw [hsig ((total_pos_iff h.ok).2 ⟨q, hq'⟩)] at this
          cases this
        | changed => exact ⟨sid, i, se.peer, rfl, by unfold OpenSession; rw [hse, ← hopen], hrej, q, hq'⟩
      · rintro ⟨_, _, _, he, _, _, q, hq⟩
        cases he
        refine ⟨⟨q, ?_⟩, ?_⟩
        · simp only [hsame.1]
          unfold queueOf
          rw [(wakeRecv_same s.disp .changed).1]
          exact hq
        · simp only [hsame.1]
          rfl
  · have h2 := step_announced hmax hann ho hovo (fun sid w i he hrej => hr ⟨sid, w, i, he, hrej⟩)
    constructor
    · rintro ⟨hq, h0⟩
      rw [h2.sig ((total_pos_iff h2.ok).2 hq)] at h0
      cases h0
    · rintro ⟨sid, i, p, he, _, hrej, _⟩
      exact absurd ⟨sid, .changed, i, he, hrej⟩ hr

/-- Two hosts are accepted; the first session's round, woken by the signal, reads an empty datagram. -/
example : OrderLegal (UdpSrv.new 8) (deafHistory.take 2) ∧ NoOverflow (UdpSrv.new 8) (deafHistory.take 2) ∧
    ¬ Unannounced (udpRun (UdpSrv.new 8) (deafHistory.take 2)).2 ∧
    ¬ Overflow (udpRun (UdpSrv.new 8) (deafHistory.take 2)).2 (.recv 0 .changed (.dgram exPeer3 [])) ∧
    Unannounced (udpStep (udpRun (UdpSrv.new 8) (deafHistory.take 2)).2 (.recv 0 .changed (.dgram exPeer3 []))).2 := by
  have hq : ∀ s op, (∀ e ∈ s.disp.conn, e.2.rxQueue.length ≠ 4) → ¬ Overflow s op := by
    rintro s op h ⟨p, b, _, hf⟩
    exact not_full h p hf
  exact ⟨⟨trivial, trivial, trivial⟩, ⟨hq _ _ (by decide +kernel), hq _ _ (by decide +kernel), trivial⟩, fun h => absurd h.2 (by decide +kernel),
    hq _ _ (by decide +kernel), ⟨exPeer2, by decide +kernel⟩, by decide +kernel⟩

/-- **C69** (exact). What makes the client report success: that what it receives is a Challenge and a Come-In, in this order and nothing before,
between or after; whatever else is in them. -/
theorem C69_success_iff (mac : MacFn) (u : UserId) (r : ResourceId) (key : Key) (l : List Message) :
    (∃ tr, (knockSequence mac u r key).Trace tr (some (.ok ())) ∧ received tr = l) ↔
      ∃ ch ci, l = [ch, ci] ∧ ch.operation = .Challenge ∧ ci.operation = .ComeIn := by
  constructor
  · rintro ⟨tr, ht, rfl⟩
    obtain ⟨_, ch, _, ci, -, h1, -, h2, -, h3, -⟩ := C13_success mac u r key tr ht
    exact ⟨ch, ci, h3, h1, h2⟩
  · rintro ⟨ch, ci, rfl, h1, h2⟩
    exact C69_anyone_is_believed mac u r key ch ci h1 h2

/-- Messages of somebody who knows nothing, with wrong identifiers and without tags. -/
example : ∃ tr, (knockSequence toyMac ⟨0xA423DDA7⟩ ⟨0xBC5D8077⟩ (Arr.replicate 32 7)).Trace tr (some (.ok ())) ∧
    received tr = [Message.new .Challenge ⟨1⟩ ⟨2⟩ goodSalt, Message.new .ComeIn ⟨3⟩ ⟨4⟩ goodSalt] :=
  (C69_success_iff toyMac _ _ _ _).2 ⟨_, _, rfl, rfl, rfl⟩

end Props

end Letmein
