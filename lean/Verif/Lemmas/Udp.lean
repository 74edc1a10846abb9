import Verif.Lemmas.Assoc
import Verif.Spec.Udp

/-!
# Lemmas about the UDP dispatcher
-/

namespace Letmein

open Spec

/-- Well-formed dispatcher. -/
structure DispOk (max : Nat) (d : UdpDisp) : Prop where
  nodup : (d.conn.map (·.1)).Nodup
  entry : ∀ e ∈ d.conn, e.2.peerAddr = e.1 ∧ e.2.rxQueue.length ≤ 4
  size : d.conn.length ≤ max
  max_eq : d.maxConn = max

/-- Number of queued datagrams. -/
def total (l : List (SocketAddr × UdpConn)) : Nat := (l.map (fun e => e.2.rxQueue.length)).sum

/-- The connection a datagram of `src` is put into. -/
def connFor (d : UdpDisp) (src : SocketAddr) : UdpConn :=
  (assocGet d.conn src).getD { rxQueue := [], peerAddr := src, accepted := false }

/-- The state after a successfully queued datagram. -/
def pushed (d : UdpDisp) (src : SocketAddr) (b : Arr MSG_SIZE) : UdpDisp :=
  { d with
    conn := assocSet d.conn src { connFor d src with rxQueue := (connFor d src).rxQueue ++ [b] }
    nrQueued := d.nrQueued + 1
    acceptSig := d.acceptSig || !(connFor d src).accepted
    recvSig := d.recvSig || !(connFor d src).accepted }

/-- The outcomes of `tryRecv`. -/
inductive TryRecvCase (d : UdpDisp) : SockIn → R Unit → UdpDisp → Prop where
  | idle : TryRecvCase d .wouldBlock (.ok ()) d
  | fail : TryRecvCase d .fail .err d
  | short {src data} (h : data.length < 56) : TryRecvCase d (.dgram src data) .err d
  | overflow {src data} {c} (h : 56 ≤ data.length) (hc : assocGet d.conn src = some c) (hq : c.rxQueue.length = 4) :
      TryRecvCase d (.dgram src data) .err { d with conn := assocErase d.conn src }
  | full {src data} (h : 56 ≤ data.length) (hc : assocGet d.conn src = none) (hl : d.conn.length = d.maxConn) :
      TryRecvCase d (.dgram src data) .err d
  | crash {src data} (h : 56 ≤ data.length) (hq : (connFor d src).rxQueue.length < 4)
      (hs : (assocSet d.conn src { connFor d src with rxQueue := (connFor d src).rxQueue ++ [Arr.replicate MSG_SIZE 0] }).length ≤ d.maxConn)
      (hn : ¬ d.maxConn * 4 ≤ USIZE_MAX ∨ d.maxConn * 4 < d.nrQueued + 1) : TryRecvCase d (.dgram src data) .panic d
  | push {src data} {b : Arr MSG_SIZE} (h : 56 ≤ data.length) (hb : b.val = data.take 56)
      (hq : (connFor d src).rxQueue.length < 4)
      (hs : (assocSet d.conn src { connFor d src with rxQueue := (connFor d src).rxQueue ++ [b] }).length ≤ d.maxConn)
      (hn : d.nrQueued + 1 ≤ d.maxConn * 4) :
      TryRecvCase d (.dgram src data) (.ok ()) (pushed d src b)

theorem assocSet_length_eq {κ ν : Type} [DecidableEq κ] (l : List (κ × ν)) (k : κ) (v w : ν) :
    (assocSet l k v).length = (assocSet l k w).length := by simp [assocSet]

theorem tryRecv_cases {max : Nat} {d : UdpDisp} (hd : DispOk max d) (i : SockIn) :
    TryRecvCase d i (d.tryRecv i).1 (d.tryRecv i).2 := by
  cases i with
  | wouldBlock => exact .idle
  | fail => exact .fail
  | dgram src data =>
    unfold UdpDisp.tryRecv
    simp only
    by_cases hlen : (data.take MSG_SIZE).length = MSG_SIZE
    · rw [dif_pos hlen]
      have h56 : 56 ≤ data.length := by
        rw [List.length_take] at hlen
        have : MSG_SIZE = 56 := rfl
        omega
      have hsz := hd.size
      rw [if_neg (by rw [hd.max_eq]; omega)]
      have hq4 : (connFor d src).rxQueue.length ≤ 4 := by
        unfold connFor
        cases hc : assocGet d.conn src with
        | none => simp
        | some c => exact (hd.entry _ (assocGet_mem hc)).2
      have hcf : (assocGet d.conn src).getD { rxQueue := [], peerAddr := src, accepted := false } = connFor d src := rfl
      simp only [hcf]
      rw [if_neg (fun hh => hh hq4)]
      by_cases hfull : (connFor d src).rxQueue.length = 4
      · rw [if_pos hfull]
        cases hc : assocGet d.conn src with
        | none => simp [connFor, hc] at hfull
        | some c =>
          have : (connFor d src) = c := by simp [connFor, hc]
          exact .overflow h56 hc (this ▸ hfull)
      · rw [if_neg hfull]
        have hq : (connFor d src).rxQueue.length < 4 := by omega
        by_cases hs : (assocSet d.conn src { connFor d src with
            rxQueue := (connFor d src).rxQueue ++ [⟨data.take MSG_SIZE, hlen⟩] }).length > d.maxConn
        · rw [if_pos hs]
          cases hc : assocGet d.conn src with
          | none =>
            rw [assocSet_length_of_none hc] at hs
            rw [assocErase_set, assocErase_of_none hc]
            exact .full h56 hc (by have := hd.max_eq; omega)
          | some c =>
            rw [assocSet_length_of_some hd.nodup hc] at hs
            have := hd.max_eq
            omega
        · rw [if_neg hs]
          have hs' := Nat.le_of_not_gt hs
          by_cases h1 : d.nrQueued + 1 ≤ USIZE_MAX
          · rw [if_neg (fun hh => hh h1)]
            by_cases h2 : d.maxConn * 4 ≤ USIZE_MAX
            · rw [if_neg (fun hh => hh h2)]
              by_cases h3 : d.nrQueued + 1 ≤ d.maxConn * 4
              · rw [if_neg (fun hh => hh h3)]
                have hp := TryRecvCase.push (src := src) (b := ⟨data.take MSG_SIZE, hlen⟩) h56 rfl hq hs' h3
                cases hacc : (connFor d src).accepted with
                | false =>
                  simp only [pushed, hacc, Bool.not_false, Bool.or_true] at hp
                  simp only [Bool.not_false, if_true]
                  exact hp
                | true =>
                  simp only [pushed, hacc, Bool.not_true, Bool.or_false] at hp
                  simp only [Bool.not_true, Bool.false_eq_true, if_false]
                  exact hp
              · rw [if_pos h3]
                exact .crash h56 hq (by rw [assocSet_length_eq]; exact hs') (.inr (by omega))
            · rw [if_pos h2]
              exact .crash h56 hq (by rw [assocSet_length_eq]; exact hs') (.inl h2)
          · rw [if_pos h1]
            refine .crash h56 hq (by rw [assocSet_length_eq]; exact hs') ?_
            by_cases h2 : d.maxConn * 4 ≤ USIZE_MAX
            · right; omega
            · exact .inl h2
    · rw [dif_neg hlen]
      refine .short ?_
      rw [List.length_take] at hlen
      have : MSG_SIZE = 56 := rfl
      omega

theorem total_perm {l l' : List (SocketAddr × UdpConn)} (h : l.Perm l') : total l = total l' :=
  (h.map _).sum_nat

theorem total_cons (e : SocketAddr × UdpConn) (l : List (SocketAddr × UdpConn)) :
    total (e :: l) = e.2.rxQueue.length + total l := by simp [total]

theorem total_erase {l : List (SocketAddr × UdpConn)} (hn : (l.map (·.1)).Nodup) {k : SocketAddr} {c : UdpConn}
    (h : assocGet l k = some c) : total l = c.rxQueue.length + total (assocErase l k) := by
  rw [total_perm (assoc_perm_cons hn h), total_cons]

theorem total_le {l : List (SocketAddr × UdpConn)} (h : ∀ e ∈ l, e.2.rxQueue.length ≤ 4) : total l ≤ l.length * 4 := by
  induction l with
  | nil => simp [total]
  | cons e l ih =>
    rw [total_cons, List.length_cons]
    have := h e List.mem_cons_self
    have := ih (fun e he => h e (List.mem_cons_of_mem _ he))
    omega

theorem DispOk.new (max : Nat) : DispOk max (UdpDisp.new max) := by
  constructor <;> simp [UdpDisp.new]

theorem DispOk.congr {max : Nat} {d d' : UdpDisp} (h : DispOk max d) (hc : d'.conn = d.conn) (hm : d'.maxConn = d.maxConn) :
    DispOk max d' :=
  ⟨hc ▸ h.nodup, hc ▸ h.entry, hc ▸ h.size, hm ▸ h.max_eq⟩

theorem DispOk.reorder {max : Nat} {d : UdpDisp} (h : DispOk max d) {l : List (SocketAddr × UdpConn)} (p : l.Perm d.conn) :
    DispOk max { d with conn := l } :=
  ⟨(p.map _).nodup_iff.2 h.nodup, fun e he => h.entry e (p.mem_iff.1 he),
    p.length_eq ▸ h.size, h.max_eq⟩

theorem DispOk.erase {max : Nat} {d : UdpDisp} (h : DispOk max d) (p : SocketAddr) (nr : Nat) :
    DispOk max { d with conn := assocErase d.conn p, nrQueued := nr } :=
  ⟨assocErase_nodup h.nodup p, fun e he => h.entry e (mem_assocErase he).1,
    Nat.le_trans (assocErase_length_le _ _) h.size, h.max_eq⟩

theorem connFor_peer {max : Nat} {d : UdpDisp} (h : DispOk max d) (p : SocketAddr) : (connFor d p).peerAddr = p := by
  unfold connFor
  cases hc : assocGet d.conn p with
  | none => rfl
  | some c => exact (h.entry _ (assocGet_mem hc)).1

theorem DispOk.pushed {max : Nat} {d : UdpDisp} (h : DispOk max d) {src : SocketAddr} {b : Arr MSG_SIZE}
    (hq : (connFor d src).rxQueue.length < 4)
    (hs : (assocSet d.conn src { connFor d src with rxQueue := (connFor d src).rxQueue ++ [b] }).length ≤ d.maxConn) :
    DispOk max (pushed d src b) := by
  refine ⟨assocSet_nodup h.nodup _ _, ?_, h.max_eq ▸ hs, h.max_eq⟩
  · intro e he
    rcases List.mem_cons.1 he with rfl | he
    · refine ⟨connFor_peer h src, ?_⟩
      simp only [List.length_append, List.length_singleton]
      omega
    · exact h.entry e (mem_assocErase he).1

theorem tryRecv_ok {max : Nat} {d : UdpDisp} (hd : DispOk max d) (i : SockIn) : DispOk max (d.tryRecv i).2 := by
  have := tryRecv_cases hd i
  generalize (d.tryRecv i).1 = r at this
  generalize (d.tryRecv i).2 = d' at this
  cases this with
  | idle => exact hd
  | fail => exact hd
  | short _ => exact hd
  | overflow _ _ _ => exact hd.erase _ _
  | full _ _ _ => exact hd
  | crash _ _ _ _ => exact hd
  | push _ _ hq hs _ => exact hd.pushed hq hs

/-- What `acceptFirst` does. -/
theorem acceptFirst_some {l l' : List (SocketAddr × UdpConn)} {p : SocketAddr} (h : acceptFirst l = some (p, l')) :
    ∃ pre k c post, l = pre ++ (k, c) :: post ∧ c.accepted = false ∧ c.peerAddr = p ∧
      l' = pre ++ (k, { c with accepted := true }) :: post := by
  induction l generalizing l' with
  | nil => cases h
  | cons e l ih =>
    obtain ⟨k, c⟩ := e
    rw [acceptFirst] at h
    cases hacc : c.accepted with
    | false =>
      rw [hacc] at h
      simp only [Bool.not_false, if_true, Option.some.injEq, Prod.mk.injEq] at h
      exact ⟨[], k, c, l, rfl, hacc, h.1, by simp [← h.2]⟩
    | true =>
      rw [hacc] at h
      simp only [Bool.not_true, Bool.false_eq_true, if_false] at h
      cases hr : acceptFirst l with
      | none => rw [hr] at h; cases h
      | some r =>
        obtain ⟨q, l2⟩ := r
        rw [hr] at h
        simp only [Option.some.injEq, Prod.mk.injEq] at h
        obtain ⟨pre, k', c', post, h1, h2, h3, h4⟩ := ih (l' := l2) (h.1 ▸ hr)
        exact ⟨(k, c) :: pre, k', c', post, by rw [h1]; rfl, h2, h3, by rw [← h.2, h4]; rfl⟩

theorem acceptFirst_none {l : List (SocketAddr × UdpConn)} (h : acceptFirst l = none) : ∀ e ∈ l, e.2.accepted = true := by
  induction l with
  | nil => simp
  | cons e l ih =>
    obtain ⟨k, c⟩ := e
    rw [acceptFirst] at h
    cases hacc : c.accepted with
    | false => rw [hacc] at h; simp at h
    | true =>
      rw [hacc] at h
      simp only [Bool.not_true, Bool.false_eq_true, if_false] at h
      cases hr : acceptFirst l with
      | none =>
        intro e he
        rcases List.mem_cons.1 he with rfl | he
        · exact hacc
        · exact ih hr e he
      | some r => rw [hr] at h; cases h

/-- Accepting in terms of the map. -/
theorem acceptFirst_get {max : Nat} {d : UdpDisp} (hd : DispOk max d) {l' : List (SocketAddr × UdpConn)} {p : SocketAddr}
    (h : acceptFirst d.conn = some (p, l')) :
    ∃ c, assocGet d.conn p = some c ∧ c.accepted = false ∧ assocGet l' p = some { c with accepted := true } ∧
      (∀ q, q ≠ p → assocGet l' q = assocGet d.conn q) ∧ DispOk max { d with conn := l' } ∧ total l' = total d.conn := by
  obtain ⟨pre, k, c, post, h1, h2, h3, h4⟩ := acceptFirst_some h
  have hmem : (k, c) ∈ d.conn := by rw [h1]; simp
  have hk : k = p := by rw [← h3]; exact (hd.entry _ hmem).1.symm
  subst hk
  have hkeys : l'.map (·.1) = d.conn.map (·.1) := by rw [h4, h1]; simp
  have hn : (l'.map (·.1)).Nodup := hkeys ▸ hd.nodup
  refine ⟨c, assocGet_of_mem hd.nodup hmem, h2, assocGet_of_mem hn (by rw [h4]; simp), ?_, ⟨hn, ?_, ?_, hd.max_eq⟩, ?_⟩
  · intro q hq
    apply Option.ext
    intro v
    rw [assocGet_eq_some_iff hn, assocGet_eq_some_iff hd.nodup, h4, h1]
    simp [hq]
  · intro e he
    rw [h4] at he
    simp only [List.mem_append, List.mem_cons] at he
    rcases he with he | he | he
    · exact hd.entry e (by rw [h1]; simp [he])
    · rw [he]; exact hd.entry (k, c) hmem
    · exact hd.entry e (by rw [h1]; simp [he])
  · have : l'.length = d.conn.length := by rw [h4, h1]; simp
    show l'.length ≤ max
    rw [this]; exact hd.size
  · rw [h4, h1]
    simp [total]

theorem recvNotify_conn (d : UdpDisp) : d.recvNotify.conn = d.conn ∧ d.recvNotify.maxConn = d.maxConn ∧
    d.recvNotify.nrQueued = d.nrQueued ∧ d.recvNotify.acceptSig = d.acceptSig := by
  unfold UdpDisp.recvNotify
  by_cases h : d.nrQueued > 0
  · rw [if_pos h]; exact ⟨rfl, rfl, rfl, rfl⟩
  · rw [if_neg h]; exact ⟨rfl, rfl, rfl, rfl⟩

/-- The outcomes of `tryAccept`. -/
inductive AcceptCase (max : Nat) (d : UdpDisp) (i : SockIn) : R (Option SocketAddr) → UdpDisp → Prop where
  | panic (h : (d.tryRecv i).1 = .panic) : AcceptCase max d i .panic (d.tryRecv i).2
  | err (h : (d.tryRecv i).1 = .err) : AcceptCase max d i (.ok none) (d.tryRecv i).2
  | none {d'} (h : (d.tryRecv i).1 = .ok ()) (hall : ∀ e ∈ (d.tryRecv i).2.conn, e.2.accepted = true)
      (hd : d' = (d.tryRecv i).2.recvNotify) : AcceptCase max d i (.ok none) d'
  | some {d'} {p c} (h : (d.tryRecv i).1 = .ok ()) (hc : assocGet (d.tryRecv i).2.conn p = some c) (ha : c.accepted = false)
      (hp : assocGet d'.conn p = some { c with accepted := true })
      (hq : ∀ q, q ≠ p → assocGet d'.conn q = assocGet (d.tryRecv i).2.conn q)
      (hd : DispOk max d') (ht : total d'.conn = total (d.tryRecv i).2.conn) (hnr : d'.nrQueued = (d.tryRecv i).2.nrQueued)
      (hs : d'.acceptSig = (d.tryRecv i).2.acceptSig) (hrs : d'.recvSig = (d.tryRecv i).2.recvSig) : AcceptCase max d i (.ok (some p)) d'

theorem tryAccept_cases {max : Nat} {d : UdpDisp} (hd : DispOk max d) (i : SockIn) :
    AcceptCase max d i (d.tryAccept i).1 (d.tryAccept i).2 := by
  have hd' := tryRecv_ok hd i
  unfold UdpDisp.tryAccept
  cases hx : d.tryRecv i with
  | mk r d1 =>
    have h1 : (d.tryRecv i).1 = r := by rw [hx]
    have h2 : (d.tryRecv i).2 = d1 := by rw [hx]
    cases r with
    | panic => exact h2 ▸ .panic h1
    | err => exact h2 ▸ .err h1
    | ok _ =>
      rw [h2] at hd'
      cases ha : acceptFirst d1.conn with
      | none =>
        simp only [ha]
        exact .none h1 (by rw [h2]; exact acceptFirst_none ha) (by rw [h2])
      | some r =>
        obtain ⟨p, l'⟩ := r
        simp only [ha]
        obtain ⟨c, g1, g2, g3, g4, g5, g6⟩ := acceptFirst_get hd' ha
        exact .some h1 (by rw [h2]; exact g1) g2 g3 (by rw [h2]; exact g4) g5 (by rw [h2]; exact g6) (by rw [h2]) (by rw [h2]) (by rw [h2])

/-- The outcomes of `tryRecvFrom`. -/
inductive RecvFromCase (d : UdpDisp) (p : SocketAddr) (i : SockIn) : R (Option (Arr MSG_SIZE)) → UdpDisp → Prop where
  | panic (h : (d.tryRecv i).1 = .panic) : RecvFromCase d p i .panic (d.tryRecv i).2
  | err (h : (d.tryRecv i).1 = .err) : RecvFromCase d p i .err (d.tryRecv i).2
  | none {d'} (h : (d.tryRecv i).1 = .ok ()) (hq : queueOf (d.tryRecv i).2 p = [])
      (hd : d' = (d.tryRecv i).2.recvNotify) : RecvFromCase d p i (.ok none) d'
  | underflow {c} (h : (d.tryRecv i).1 = .ok ()) (hc : assocGet (d.tryRecv i).2.conn p = some c) (hq : c.rxQueue ≠ [])
      (hn : (d.tryRecv i).2.nrQueued = 0) : RecvFromCase d p i .panic (d.tryRecv i).2
  | some {d'} {c b q} (h : (d.tryRecv i).1 = .ok ()) (hc : assocGet (d.tryRecv i).2.conn p = some c) (hq : c.rxQueue = b :: q)
      (hn : (d.tryRecv i).2.nrQueued ≠ 0)
      (hd : d' = ({ (d.tryRecv i).2 with conn := assocSet (d.tryRecv i).2.conn p { c with rxQueue := q },
                                          nrQueued := (d.tryRecv i).2.nrQueued - 1 } : UdpDisp).recvNotify) :
      RecvFromCase d p i (.ok (some b)) d'

theorem tryRecvFrom_cases (d : UdpDisp) (p : SocketAddr) (i : SockIn) :
    RecvFromCase d p i (d.tryRecvFrom p i).1 (d.tryRecvFrom p i).2 := by
  unfold UdpDisp.tryRecvFrom
  cases hx : d.tryRecv i with
  | mk r d1 =>
    have h1 : (d.tryRecv i).1 = r := by rw [hx]
    have h2 : (d.tryRecv i).2 = d1 := by rw [hx]
    cases r with
    | panic => exact h2 ▸ .panic h1
    | err => exact h2 ▸ .err h1
    | ok _ =>
      cases hc : assocGet d1.conn p with
      | none =>
        simp only [hc]
        exact .none h1 (by rw [h2, queueOf, hc]) (by rw [h2])
      | some c =>
        simp only [hc]
        cases hq : c.rxQueue with
        | nil =>
          exact .none h1 (by rw [h2, queueOf, hc]; simp [hq]) (by rw [h2])
        | cons b q =>
          simp only
          by_cases hn : d1.nrQueued = 0
          · rw [if_pos hn]
            exact h2 ▸ .underflow (c := c) h1 (by rw [h2]; exact hc) (by rw [hq]; simp) (by rw [h2]; exact hn)
          · rw [if_neg hn]
            exact .some h1 (by rw [h2]; exact hc) hq (by rw [h2]; exact hn) (by rw [h2])

theorem DispOk.popped {max : Nat} {d : UdpDisp} (h : DispOk max d) {p : SocketAddr} {c : UdpConn} {b : Arr MSG_SIZE}
    {q : List (Arr MSG_SIZE)} (hc : assocGet d.conn p = some c) (hq : c.rxQueue = b :: q) (nr : Nat) :
    DispOk max { d with conn := assocSet d.conn p { c with rxQueue := q }, nrQueued := nr } := by
  refine ⟨assocSet_nodup h.nodup _ _, ?_, ?_, h.max_eq⟩
  · intro e he
    rcases List.mem_cons.1 he with rfl | he
    · have := h.entry _ (assocGet_mem hc)
      refine ⟨this.1, ?_⟩
      have h2 := this.2
      rw [hq, List.length_cons] at h2
      show q.length ≤ 4
      omega
    · exact h.entry e (mem_assocErase he).1
  · show (assocSet _ _ _).length ≤ max
    rw [assocSet_length_of_some h.nodup hc]; exact h.size

theorem wakeAccept_same (d : UdpDisp) (w : Wake) : (wakeAccept d w).conn = d.conn ∧ (wakeAccept d w).maxConn = d.maxConn ∧
    (wakeAccept d w).nrQueued = d.nrQueued := by
  cases w <;> exact ⟨rfl, rfl, rfl⟩

theorem wakeRecv_same (d : UdpDisp) (w : Wake) : (wakeRecv d w).conn = d.conn ∧ (wakeRecv d w).maxConn = d.maxConn ∧
    (wakeRecv d w).nrQueued = d.nrQueued ∧ (wakeRecv d w).acceptSig = d.acceptSig := by
  cases w <;> exact ⟨rfl, rfl, rfl, rfl⟩

/-- The effects of one operation. -/
inductive StepCase (max : Nat) (s : UdpSrv) : UdpOp → UdpOut → UdpSrv → Prop where
  | skip {op out} (hc : s.crashed = true ∨ ∃ sid, ((∃ w i, op = .recv sid w i) ∨ op = .close sid) ∧
        (s.sessions[sid]? = none ∨ ∃ se, s.sessions[sid]? = some se ∧ se.closed = true))
      (h : out = .none ∨ out = .failed) : StepCase max s op out s
  | reorder {l} : StepCase max s (.reorder l) .none { s with disp := { s.disp with conn := l } }
  | acceptPanic {w i d'} (h : AcceptCase max (wakeAccept s.disp w) i .panic d') :
      StepCase max s (.accept w i) .panic { s with disp := d', crashed := true }
  | acceptNone {w i d'} (h : AcceptCase max (wakeAccept s.disp w) i (.ok none) d') :
      StepCase max s (.accept w i) .none { s with disp := d' }
  | acceptSome {w i p d'} (hc : s.crashed = false) (h : AcceptCase max (wakeAccept s.disp w) i (.ok (some p)) d') :
      StepCase max s (.accept w i) (.accepted p) { s with disp := d', sessions := s.sessions ++ [{ peer := p, closed := false }] }
  | recvPanic {sid w i se d'} (hs : s.sessions[sid]? = some se) (ho : se.closed = false)
      (h : RecvFromCase (wakeRecv s.disp w) se.peer i .panic d') :
      StepCase max s (.recv sid w i) .panic { s with disp := d', crashed := true }
  | recvNone {sid w i se d'} (hs : s.sessions[sid]? = some se) (ho : se.closed = false)
      (h : RecvFromCase (wakeRecv s.disp w) se.peer i (.ok none) d') :
      StepCase max s (.recv sid w i) .none { s with disp := d' }
  | recvErr {sid w i se d'} (hs : s.sessions[sid]? = some se) (ho : se.closed = false)
      (h : RecvFromCase (wakeRecv s.disp w) se.peer i .err d') :
      StepCase max s (.recv sid w i) .failed { s with disp := d' }
  | recvSome {sid w i se b d'} (hc : s.crashed = false) (hs : s.sessions[sid]? = some se) (ho : se.closed = false)
      (h : RecvFromCase (wakeRecv s.disp w) se.peer i (.ok (some b)) d') :
      StepCase max s (.recv sid w i) (.got b) { s with disp := d' }
  | closePanic {sid se d'} (hs : s.sessions[sid]? = some se) (ho : se.closed = false) (h : s.disp.disconnect se.peer = (.panic, d')) :
      StepCase max s (.close sid) .panic { s with disp := d', sessions := s.sessions.set sid { se with closed := true }, crashed := true }
  | closeOk {sid se d'} (hs : s.sessions[sid]? = some se) (ho : se.closed = false) (h : s.disp.disconnect se.peer = (.ok (), d')) :
      StepCase max s (.close sid) .none { s with disp := d', sessions := s.sessions.set sid { se with closed := true } }

theorem tryAccept_not_err (d : UdpDisp) (i : SockIn) : (d.tryAccept i).1 ≠ .err := by
  unfold UdpDisp.tryAccept
  cases d.tryRecv i with
  | mk r d1 =>
    cases r with
    | panic => simp
    | err => simp
    | ok _ =>
      simp only
      cases acceptFirst d1.conn with
      | none => simp
      | some r => simp

/-- The outcomes of `disconnect`. -/
theorem disconnect_cases (d : UdpDisp) (p : SocketAddr) :
    (d.nrQueued < (queueOf d p).length ∧ d.disconnect p = (.panic, d)) ∨
    ((queueOf d p).length ≤ d.nrQueued ∧
      ((assocErase d.conn p = [] ∧ d.nrQueued ≠ (queueOf d p).length ∧
          d.disconnect p = (.panic, { d with nrQueued := d.nrQueued - (queueOf d p).length, conn := assocErase d.conn p })) ∨
       ((assocErase d.conn p = [] → d.nrQueued = (queueOf d p).length) ∧
          d.disconnect p = (.ok (), { d with nrQueued := d.nrQueued - (queueOf d p).length, conn := assocErase d.conn p })))) := by
  have hlen : d.queueLen p = (queueOf d p).length := by
    unfold queueOf UdpDisp.queueLen
    cases assocGet d.conn p <;> simp
  unfold UdpDisp.disconnect
  simp only [hlen]
  by_cases h1 : d.nrQueued < (queueOf d p).length
  · left
    exact ⟨h1, by simp only [if_pos h1]⟩
  · right
    refine ⟨Nat.le_of_not_lt h1, ?_⟩
    by_cases h2 : (assocErase d.conn p) = [] ∧ d.nrQueued ≠ (queueOf d p).length
    · left
      refine ⟨h2.1, h2.2, ?_⟩
      simp only [if_neg h1]
      rw [if_pos]
      refine ⟨by rw [h2.1]; rfl, ?_⟩
      have := h2.2
      omega
    · right
      refine ⟨fun he => Decidable.byContradiction fun hn => h2 ⟨he, hn⟩, ?_⟩
      simp only [if_neg h1]
      rw [if_neg]
      rintro ⟨he, hn⟩
      refine h2 ⟨by simpa using he, ?_⟩
      omega

theorem disconnect_not_err (d : UdpDisp) (p : SocketAddr) : (d.disconnect p).1 ≠ .err := by
  rcases disconnect_cases d p with ⟨_, h⟩ | ⟨_, ⟨_, _, h⟩ | ⟨_, h⟩⟩ <;> rw [h] <;> simp

theorem udpStep_cases {max : Nat} {s : UdpSrv} (hd : DispOk max s.disp) (op : UdpOp) :
    StepCase max s op (udpStep s op).1 (udpStep s op).2 := by
  unfold udpStep
  cases hcr : s.crashed with
  | true => exact .skip (.inl hcr) (.inl rfl)
  | false =>
    simp only [Bool.false_eq_true, if_false]
    cases op with
    | reorder l => have := StepCase.reorder (max := max) (s := s) (l := l); rw [hcr] at this; exact this
    | accept w i =>
      have hd0 : DispOk max (wakeAccept s.disp w) := hd.congr (wakeAccept_same _ _).1 (wakeAccept_same _ _).2.1
      have h := tryAccept_cases hd0 i
      have hne := tryAccept_not_err (wakeAccept s.disp w) i
      simp only
      cases hx : (wakeAccept s.disp w).tryAccept i with
      | mk r d' =>
        rw [hx] at h hne
        cases r with
        | panic => exact .acceptPanic h
        | err => exact absurd rfl hne
        | ok o =>
          cases o with
          | none => have := StepCase.acceptNone (s := s) h; rw [hcr] at this; exact this
          | some p => have := StepCase.acceptSome (s := s) hcr h; rw [hcr] at this; exact this
    | recv sid w i =>
      simp only
      cases hs : s.sessions[sid]? with
      | none => exact .skip (.inr ⟨sid, .inl ⟨w, i, rfl⟩, .inl hs⟩) (.inl rfl)
      | some se =>
        simp only
        cases ho : se.closed with
        | true => exact .skip (.inr ⟨sid, .inl ⟨w, i, rfl⟩, .inr ⟨se, hs, ho⟩⟩) (.inr rfl)
        | false =>
          simp only [Bool.false_eq_true, if_false]
          have h := tryRecvFrom_cases (wakeRecv s.disp w) se.peer i
          cases hx : (wakeRecv s.disp w).tryRecvFrom se.peer i with
          | mk r d' =>
            rw [hx] at h
            cases r with
            | panic => exact .recvPanic hs ho h
            | err => have := StepCase.recvErr (max := max) (s := s) hs ho h; rw [hcr] at this; exact this
            | ok o =>
              cases o with
              | none => have := StepCase.recvNone (max := max) (s := s) hs ho h; rw [hcr] at this; exact this
              | some b => have := StepCase.recvSome (max := max) (s := s) hcr hs ho h; rw [hcr] at this; exact this
    | close sid =>
      simp only
      cases hs : s.sessions[sid]? with
      | none => exact .skip (.inr ⟨sid, .inr rfl, .inl hs⟩) (.inl rfl)
      | some se =>
        simp only
        cases ho : se.closed with
        | true => exact .skip (.inr ⟨sid, .inr rfl, .inr ⟨se, hs, ho⟩⟩) (.inl rfl)
        | false =>
          simp only [Bool.false_eq_true, if_false]
          have hne := disconnect_not_err s.disp se.peer
          cases hx : s.disp.disconnect se.peer with
          | mk r d' =>
            rw [hx] at hne
            cases r with
            | panic => have := StepCase.closePanic (max := max) (s := s) hs ho hx; simpa [ho] using this
            | err => exact absurd rfl hne
            | ok _ => have := StepCase.closeOk (max := max) (s := s) hs ho hx; rw [hcr] at this; exact this

end Letmein
