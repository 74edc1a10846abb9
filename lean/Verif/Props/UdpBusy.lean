import Verif.Spec.UdpBusy
import Verif.Props.Lossy
import Verif.Props.Udp

/-!
# Properties C108 and C109: the UDP server with all its sessions
-/

set_option linter.unusedSimpArgs false

namespace Letmein.Props

open Letmein Prog Spec

attribute [local simp] hist1 hist2 hist3 hist4 received sent fwRequests recvd sentMsg fwReq isFw challengeMsg goAwayMsg
  Message.new List.filterMap_cons

/-! ## One session -/

/-- **C108**, for one session: at every moment it has handed out no more messages than it has received. -/
theorem C108_session (mac : MacFn) (conf : Config) (peer : IpAddr) (tr : List Ev) (o : Option (R Unit))
    (ht : (session mac conf peer).Trace tr o) (pre post : List Ev) (hs : tr = pre ++ post) :
    (sent pre).length ≤ (received pre).length := by
  have ob : SessionObl mac conf peer
      (fun h e => (sentMsg e).isSome = true → (sent h).length + 1 ≤ (received h).length) (fun _ _ => True) := by
    constructor <;> intros <;>
      first
        | trivial
        | (refine reject_ok ?_ ?_ ?_ ?_ ?_ <;> intros <;> simp_all; done)
        | (refine ⟨?_, ?_⟩ <;> intros <;> simp_all; done)
        | (simp_all; done)
  have h1 := ((session_ok ob).sound ht).1
  have step : ∀ (n : Nat) (pre : List Ev), pre.length = n → (∃ post, tr = pre ++ post) →
      (sent pre).length ≤ (received pre).length := by
    intro n
    induction n with
    | zero => intro pre hl _; rw [List.length_eq_zero_iff.1 hl]; exact Nat.le_refl _
    | succ n ih =>
      rintro pre hl ⟨post, hp⟩
      obtain ⟨q, e, rfl⟩ : ∃ q e, pre = q ++ [e] := by
        refine ⟨pre.dropLast, pre.getLast (by intro h; rw [h] at hl; simp at hl), (List.dropLast_concat_getLast _).symm⟩
      have hq := ih q (by simpa using hl) ⟨e :: post, by simpa using hp⟩
      have he := h1 q e post (by simpa using hp)
      rw [List.nil_append] at he
      have e1 : (sent (q ++ [e])).length = (sent q).length + (sentMsg e).toList.length := by
        unfold sent; rw [List.filterMap_append, List.length_append]
        cases h : sentMsg e <;> simp [h, -sentMsg]
      have e2 : (received q).length ≤ (received (q ++ [e])).length := by
        unfold received; rw [List.filterMap_append, List.length_append]; omega
      cases h : sentMsg e with
      | none => rw [h] at e1; simp only [Option.toList_none, List.length_nil] at e1; omega
      | some m =>
        rw [h] at e1 he
        simp only [Option.toList_some, List.length_cons, List.length_nil, Option.isSome_some, forall_const] at e1 he
        omega
  exact step _ pre rfl ⟨post, hs⟩

/-! ## The invariant -/

/-- The session an event of the log belongs to. -/
def tagOf : BusyEv → Option Nat
  | .rx _ _ => none
  | .got sid _ _ => some sid
  | .tx sid _ _ => some sid

/-- What session `sid` was given. -/
def gotOf (sid : Nat) (log : List BusyEv) : List Bytes :=
  log.filterMap (fun e => match e with | .got n _ d => if n = sid then some d else none | _ => none)

/-- What session `sid` put on the wire. -/
def txOf (sid : Nat) (log : List BusyEv) : List Bytes :=
  log.filterMap (fun e => match e with | .tx n _ d => if n = sid then some d else none | _ => none)

/-- What sessions of peer `p` were given. -/
def gotBy (p : SocketAddr) (log : List BusyEv) : List Bytes :=
  log.filterMap (fun e => match e with | .got _ q d => if q = p then some d else none | _ => none)

/-- The message in a datagram. -/
def decoded (b : Bytes) : Option Message :=
  match Message.deserialize b with
  | .ok m => some m
  | _ => none

/-- A task and the part of the log that belongs to it. -/
structure TaskOk (mac : MacFn) (conf : Config) (log : List BusyEv) (sid : Nat) (p : SocketAddr) (t : BusyTask) : Prop where
  reach : ∃ q, Reaches (session mac conf p.ip) t.done q ∧ (t.prog = q ∨ t.prog = .ret .panic)
  recv : received t.done = (gotOf sid log).filterMap decoded
  few : (txOf sid log).length ≤ (sent t.done).length
  went : ∀ m, (⟨.send m, true⟩ : Ev) ∈ t.done → ∃ b, m.serialize = .ok b ∧ BusyEv.tx sid p b ∈ log
  mine : ∀ q b, BusyEv.tx sid q b ∈ log → q = p ∧ ∃ m ∈ sent t.done, m.serialize = .ok b
  own : ∀ q b, BusyEv.got sid q b ∈ log → q = p

theorem gotOf_append (sid : Nat) (a b : List BusyEv) : gotOf sid (a ++ b) = gotOf sid a ++ gotOf sid b := List.filterMap_append
theorem txOf_append (sid : Nat) (a b : List BusyEv) : txOf sid (a ++ b) = txOf sid a ++ txOf sid b := List.filterMap_append
theorem gotBy_append (p : SocketAddr) (a b : List BusyEv) : gotBy p (a ++ b) = gotBy p a ++ gotBy p b := List.filterMap_append

theorem gotOf_foreign {sid : Nat} {l : List BusyEv} (h : ∀ e ∈ l, tagOf e ≠ some sid) : gotOf sid l = [] := by
  unfold gotOf
  rw [List.filterMap_eq_nil_iff]
  intro e he
  have := h e he
  cases e with
  | got n q d => simp only [tagOf, ne_eq, Option.some.injEq] at this; simp [this]
  | _ => rfl

theorem txOf_foreign {sid : Nat} {l : List BusyEv} (h : ∀ e ∈ l, tagOf e ≠ some sid) : txOf sid l = [] := by
  unfold txOf
  rw [List.filterMap_eq_nil_iff]
  intro e he
  have := h e he
  cases e with
  | tx n q d => simp only [tagOf, ne_eq, Option.some.injEq] at this; simp [this]
  | _ => rfl

/-- Events of other sessions do not concern a task. -/
theorem TaskOk.ext {mac : MacFn} {conf : Config} {log : List BusyEv} {sid : Nat} {p : SocketAddr} {t : BusyTask}
    (h : TaskOk mac conf log sid p t) {l : List BusyEv} (hl : ∀ e ∈ l, tagOf e ≠ some sid) : TaskOk mac conf (log ++ l) sid p t := by
  refine ⟨h.reach, ?_, ?_, ?_, ?_, ?_⟩
  · rw [gotOf_append, gotOf_foreign hl, List.append_nil]; exact h.recv
  · rw [txOf_append, txOf_foreign hl, List.append_nil]; exact h.few
  · intro m hm
    obtain ⟨b, h1, h2⟩ := h.went m hm
    exact ⟨b, h1, List.mem_append_left _ h2⟩
  · intro q b hb
    rcases List.mem_append.1 hb with hb | hb
    · exact h.mine q b hb
    · exact absurd rfl (hl _ hb)
  · intro q b hb
    rcases List.mem_append.1 hb with hb | hb
    · exact h.own q b hb
    · exact absurd rfl (hl _ hb)

/-- What every reachable state satisfies. -/
structure BusyInv (mac : MacFn) (conf : Config) (max : Nat) (S : UdpBusy) : Prop where
  disp : DispOk max S.sock.disp
  len : S.tasks.length = S.sock.sessions.length
  tasks : ∀ sid t p, S.tasks[sid]? = some t → (S.sock.sessions.map (·.peer))[sid]? = some p → TaskOk mac conf S.log sid p t
  low : ∀ e ∈ S.log, ∀ sid, tagOf e = some sid → sid < S.tasks.length
  flow : ∀ p, (gotBy p S.log ++ queueOf S.sock.disp p).Sublist (asMessages (cameFrom p S.log))

theorem cameFrom_append (p : SocketAddr) (a b : List BusyEv) : cameFrom p (a ++ b) = cameFrom p a ++ cameFrom p b := List.filterMap_append
theorem asMessages_append (a b : List Bytes) : asMessages (a ++ b) = asMessages a ++ asMessages b := List.filterMap_append

theorem busyRead_messages (p : SocketAddr) (i : SockIn) (op : UdpOp) (h : sockOf op = some i) :
    asMessages (cameFrom p (busyRead i)) = (dgramOf p op).toList := by
  unfold dgramOf
  rw [h]
  cases i with
  | dgram q data =>
    by_cases hq : q = p
    · by_cases hl : 56 ≤ data.length <;> simp [busyRead, cameFrom, fromAddr, asMessages, hq, hl]
    · simp [busyRead, cameFrom, fromAddr, asMessages, hq]
  | wouldBlock => rfl
  | fail => rfl

theorem busyRead_tag (i : SockIn) (sid : Nat) : ∀ e ∈ busyRead i, tagOf e ≠ some sid := by
  intro e he
  cases i with
  | dgram q data => simp only [busyRead, List.mem_singleton] at he; subst he; simp [tagOf]
  | wouldBlock => simp [busyRead] at he
  | fail => simp [busyRead] at he

theorem gotBy_read (p : SocketAddr) (i : SockIn) : gotBy p (busyRead i) = [] := by cases i <;> rfl

theorem gotBy_got (p : SocketAddr) (sid : Nat) (q : SocketAddr) (out : UdpOut) (peers : List SocketAddr) (op : UdpOp)
    (w : Wake) (i : SockIn) (ho : op = .recv sid w i) (hq : peers[sid]? = some q) :
    gotBy p (busyGot sid q out) = (deliveryOf peers p (op, out)).toList := by
  subst ho
  cases out with
  | got b =>
    by_cases h : q = p <;> simp [busyGot, gotBy, deliveryOf, hq, h]
  | _ => rfl

theorem cameFrom_got (p : SocketAddr) (sid : Nat) (q : SocketAddr) (out : UdpOut) : cameFrom p (busyGot sid q out) = [] := by
  cases out <;> rfl

theorem flow_step {max : Nat} {S : UdpBusy} (hd : DispOk max S.sock.disp) {op : UdpOp} (ho : OrderOk S.sock op)
    (p : SocketAddr) (h : (gotBy p S.log ++ queueOf S.sock.disp p).Sublist (asMessages (cameFrom p S.log)))
    (l : List BusyEv) (peers : List SocketAddr) (hp : S.sock.sessions.map (·.peer) <+: peers)
    (hg : gotBy p l = (deliveryOf peers p (op, (udpStep S.sock op).1)).toList)
    (hc : asMessages (cameFrom p l) = (dgramOf p op).toList) :
    (gotBy p (S.log ++ l) ++ queueOf (udpStep S.sock op).2.disp p).Sublist (asMessages (cameFrom p (S.log ++ l))) := by
  rw [gotBy_append, cameFrom_append, asMessages_append, hg, hc, List.append_assoc]
  refine List.Sublist.trans ((step_flow hd ho peers hp p).append_left _) ?_
  rw [← List.append_assoc]
  exact h.append_right _

/-- A task does something; the log grows by `l`. -/
theorem tasks_set {mac : MacFn} {conf : Config} {S : UdpBusy} {max : Nat} (h : BusyInv mac conf max S) {sid : Nat} {t' : BusyTask}
    (hlt : sid < S.tasks.length) {l : List BusyEv} (hl : ∀ e ∈ l, ∀ n, tagOf e = some n → n = sid)
    (hok : ∀ p, (S.sock.sessions.map (·.peer))[sid]? = some p → TaskOk mac conf (S.log ++ l) sid p t')
    {n : Nat} {t : BusyTask} {p : SocketAddr} (ht : (S.tasks.set sid t')[n]? = some t)
    (hp : (S.sock.sessions.map (·.peer))[n]? = some p) : TaskOk mac conf (S.log ++ l) n p t := by
  by_cases hn : sid = n
  · subst hn
    rw [List.getElem?_set_self hlt] at ht
    cases ht
    exact hok p hp
  · rw [List.getElem?_set_ne hn] at ht
    exact (h.tasks n t p ht hp).ext (fun e he hc => hn (hl e he n hc).symm)

theorem low_step {S : UdpBusy} {sid : Nat} {t' : BusyTask} (hlt : sid < S.tasks.length)
    (h : ∀ e ∈ S.log, ∀ sid, tagOf e = some sid → sid < S.tasks.length) {l : List BusyEv}
    (hl : ∀ e ∈ l, ∀ n, tagOf e = some n → n = sid) :
    ∀ e ∈ S.log ++ l, ∀ n, tagOf e = some n → n < (S.tasks.set sid t').length := by
  intro e he n hn
  rw [List.length_set]
  rcases List.mem_append.1 he with he | he
  · exact h e he n hn
  · rw [hl e he n hn]; exact hlt

theorem received_snoc (tr : List Ev) (e : Ev) : received (tr ++ [e]) = received tr ++ (recvd e).toList := by
  unfold received
  rw [List.filterMap_append]
  cases h : recvd e <;> simp [h, -recvd]

theorem sent_snoc (tr : List Ev) (e : Ev) : sent (tr ++ [e]) = sent tr ++ (sentMsg e).toList := by
  unfold sent
  rw [List.filterMap_append]
  cases h : sentMsg e <;> simp [h, -sentMsg]

/-- A task goes one event further; nothing of its own is logged but possibly a datagram it was given or sent. -/
theorem TaskOk.advance {mac : MacFn} {conf : Config} {log : List BusyEv} {sid : Nat} {p : SocketAddr} {t : BusyTask}
    (h : TaskOk mac conf log sid p t) {a : Act} {k : a.Resp → Prog Unit} (hk : t.prog = .act a k) (x : a.Resp)
    {l : List BusyEv}
    (hr : (gotOf sid l).filterMap decoded = (recvd ⟨a, x⟩).toList)
    (hf : (txOf sid l).length ≤ (sentMsg ⟨a, x⟩).toList.length)
    (hw : ∀ m, (⟨a, x⟩ : Ev) = ⟨.send m, true⟩ → ∃ b, m.serialize = .ok b ∧ BusyEv.tx sid p b ∈ l)
    (hm : ∀ q b, BusyEv.tx sid q b ∈ l → q = p ∧ ∃ m, sentMsg ⟨a, x⟩ = some m ∧ m.serialize = .ok b)
    (ho : ∀ q b, BusyEv.got sid q b ∈ l → q = p) :
    TaskOk mac conf (log ++ l) sid p { prog := k x, done := t.done ++ [⟨a, x⟩] } := by
  refine ⟨?_, ?_, ?_, ?_, ?_, ?_⟩
  · obtain ⟨q, h1, h2⟩ := h.reach
    rcases h2 with h2 | h2
    · rw [hk] at h2
      subst h2
      exact ⟨_, .snoc x h1, .inl rfl⟩
    · rw [hk] at h2; cases h2
  · rw [received_snoc, gotOf_append, List.filterMap_append, hr, h.recv]
  · have := h.few
    rw [sent_snoc, txOf_append, List.length_append, List.length_append]
    omega
  · intro m hmem
    rcases List.mem_append.1 hmem with hmem | hmem
    · obtain ⟨b, h1, h2⟩ := h.went m hmem
      exact ⟨b, h1, List.mem_append_left _ h2⟩
    · obtain ⟨b, h1, h2⟩ := hw m (List.mem_singleton.1 hmem).symm
      exact ⟨b, h1, List.mem_append_right _ h2⟩
  · intro q b hb
    rcases List.mem_append.1 hb with hb | hb
    · obtain ⟨h1, m, h2, h3⟩ := h.mine q b hb
      exact ⟨h1, m, by rw [sent_snoc]; exact List.mem_append_left _ h2, h3⟩
    · obtain ⟨h1, m, h2, h3⟩ := hm q b hb
      exact ⟨h1, m, by rw [sent_snoc, h2]; exact List.mem_append_right _ (by simp), h3⟩
  · intro q b hb
    rcases List.mem_append.1 hb with hb | hb
    · exact h.own q b hb
    · exact ho q b hb

/-- A task goes one event further without touching the network. -/
theorem TaskOk.silent {mac : MacFn} {conf : Config} {log : List BusyEv} {sid : Nat} {p : SocketAddr} {t : BusyTask}
    (h : TaskOk mac conf log sid p t) {a : Act} {k : a.Resp → Prog Unit} (hk : t.prog = .act a k) (x : a.Resp)
    (hr : recvd ⟨a, x⟩ = none) (hw : ∀ m, (⟨a, x⟩ : Ev) ≠ ⟨.send m, true⟩) {l : List BusyEv} (hl : ∀ e ∈ l, tagOf e ≠ some sid) :
    TaskOk mac conf (log ++ l) sid p { prog := k x, done := t.done ++ [⟨a, x⟩] } := by
  refine h.advance hk x ?_ ?_ ?_ ?_ ?_
  · rw [gotOf_foreign hl, hr]; rfl
  · rw [txOf_foreign hl]; exact Nat.zero_le _
  · intro m hm; exact absurd hm (hw m)
  · intro q b hb; exact absurd rfl (hl _ hb)
  · intro q b hb; exact absurd rfl (hl _ hb)

/-- Only the remaining program changes, to a panic. -/
theorem TaskOk.crash {mac : MacFn} {conf : Config} {log : List BusyEv} {sid : Nat} {p : SocketAddr} {t : BusyTask}
    (h : TaskOk mac conf log sid p t) : TaskOk mac conf log sid p { t with prog := .ret .panic } := by
  obtain ⟨q, h1, -⟩ := h.reach
  exact ⟨⟨q, h1, .inr rfl⟩, h.recv, h.few, h.went, h.mine, h.own⟩

theorem round_ok {mac : MacFn} {conf : Config} {log : List BusyEv} {sid : Nat} {p : SocketAddr} {t : BusyTask}
    (h : TaskOk mac conf log sid p t) {k : RecvOut → Prog Unit} (hk : t.prog = .act .recv k) (i : SockIn) (out : UdpOut) :
    TaskOk mac conf (log ++ (busyRead i ++ busyGot sid p out)) sid p (t.round k out) := by
  rw [← List.append_assoc]
  have h1 := h.ext (busyRead_tag i sid)
  cases out with
  | none => simpa [busyGot, BusyTask.round] using h1
  | accepted q => simpa [busyGot, BusyTask.round] using h1
  | panic => simpa [busyGot, BusyTask.round] using h1.crash
  | failed => exact h1.silent (a := .recv) hk RecvOut.fail rfl (by intro m hm; cases hm) (by simp [busyGot])
  | got b =>
    have hg : gotOf sid [BusyEv.got sid p b.val] = [b.val] := by simp [gotOf]
    have ht : txOf sid [BusyEv.got sid p b.val] = [] := rfl
    simp only [busyGot, BusyTask.round]
    cases hb : Message.deserialize b.val with
    | panic => exact absurd hb (deserialize_ne_panic _)
    | ok m =>
      refine h1.advance (a := .recv) hk (RecvOut.msg m) ?_ ?_ ?_ ?_ ?_
      · rw [hg]; simp [decoded, hb]
      · rw [ht]; exact Nat.zero_le _
      · intro m hm; cases hm
      · intro q b hb; simp at hb
      · intro q b hb; simp at hb; exact hb.1
    | err =>
      refine h1.advance (a := .recv) hk RecvOut.fail ?_ ?_ ?_ ?_ ?_
      · rw [hg]; simp [decoded, hb]
      · rw [ht]; exact Nat.zero_le _
      · intro m hm; cases hm
      · intro q b hb; simp at hb
      · intro q b hb; simp at hb; exact hb.1

theorem busyGot_tag (sid : Nat) (p : SocketAddr) (out : UdpOut) : ∀ e ∈ busyGot sid p out, ∀ n, tagOf e = some n → n = sid := by
  intro e he n hn
  cases out with
  | got b => simp only [busyGot, List.mem_singleton] at he; subst he; simpa [tagOf] using hn.symm
  | _ => simp [busyGot] at he

theorem busyInv_step {mac : MacFn} {conf : Config} {max : Nat} {S S' : UdpBusy} (h : BusyInv mac conf max S)
    (hs : BusyStep mac conf S S') : BusyInv mac conf max S' := by
  cases hs with
  | accept w i hc =>
    have hpe := step_peers h.disp (.accept w i)
    have hlen : (udpStep S.sock (.accept w i)).2.sessions.length =
        S.sock.sessions.length + (busyNewTask mac conf (udpStep S.sock (.accept w i)).1).length := by
      have := congrArg List.length hpe
      rw [List.length_append, List.length_map, List.length_map] at this
      rw [this]
      cases (udpStep S.sock (.accept w i)).1 <;> rfl
    refine ⟨disp_step h.disp trivial, ?_, ?_, ?_, ?_⟩
    · simp only; rw [List.length_append, hlen, h.len]
    · intro sid t p ht hp
      simp only at ht hp ⊢
      rw [hpe] at hp
      by_cases hlt : sid < S.tasks.length
      · rw [List.getElem?_append_left hlt] at ht
        rw [List.getElem?_append_left (by rw [List.length_map, ← h.len]; exact hlt)] at hp
        exact (h.tasks sid t p ht hp).ext (busyRead_tag i sid)
      · have hge : S.tasks.length ≤ sid := Nat.le_of_not_lt hlt
        rw [List.getElem?_append_right hge] at ht
        rw [List.getElem?_append_right (by rw [List.length_map, ← h.len]; exact hge), List.length_map, ← h.len] at hp
        have hno : ∀ e ∈ S.log ++ busyRead i, tagOf e ≠ some sid := by
          intro e he hc
          rcases List.mem_append.1 he with he | he
          · exact hlt (h.low e he sid hc)
          · exact busyRead_tag i sid e he hc
        generalize (udpStep S.sock (.accept w i)).1 = out at ht hp
        cases out with
        | accepted q =>
          simp only [busyNewTask, acceptOf, Option.toList_some] at ht hp
          generalize sid - S.tasks.length = n at ht hp
          cases n with
          | succ n => simp at ht
          | zero =>
            simp only [List.getElem?_cons_zero, Option.some.injEq] at ht hp
            subst ht hp
            refine ⟨⟨_, .nil, .inl rfl⟩, ?_, ?_, ?_, ?_, ?_⟩
            · rw [gotOf_foreign hno]; rfl
            · rw [txOf_foreign hno]; exact Nat.zero_le _
            · intro m hm; simp at hm
            · intro q b hb; exact absurd rfl (hno _ hb)
            · intro q b hb; exact absurd rfl (hno _ hb)
        | _ => simp [busyNewTask] at ht
    · intro e he sid hc
      simp only [List.length_append] at *
      rcases List.mem_append.1 he with he | he
      · have := h.low e he sid hc; omega
      · exact absurd hc (busyRead_tag i sid e he)
    · intro p
      refine flow_step h.disp (op := .accept w i) trivial p (h.flow p) (busyRead i) _ (List.prefix_refl _) ?_ (busyRead_messages p i _ rfl)
      rw [gotBy_read]
      rfl
  | recv sid w i t se k hc ht hs hk =>
    have hpe := step_peers h.disp (.recv sid w i)
    have hac : acceptOf (UdpOp.recv sid w i, (udpStep S.sock (.recv sid w i)).1) = none := by
      have := udpStep_cases h.disp (.recv sid w i)
      generalize (udpStep S.sock (.recv sid w i)).1 = out at this
      generalize (udpStep S.sock (.recv sid w i)).2 = s' at this
      cases this with
      | skip _ h => rcases h with rfl | rfl <;> rfl
      | _ => rfl
    rw [hac, Option.toList_none, List.append_nil] at hpe
    have hlt : sid < S.tasks.length := (List.getElem?_eq_some_iff.1 ht).1
    have hsp : (S.sock.sessions.map (·.peer))[sid]? = some se.peer := by rw [List.getElem?_map, hs]; rfl
    have htag : ∀ e ∈ busyRead i ++ busyGot sid se.peer (udpStep S.sock (.recv sid w i)).1, ∀ n, tagOf e = some n → n = sid := by
      intro e he n hn
      rcases List.mem_append.1 he with he | he
      · exact absurd hn (busyRead_tag i n e he)
      · exact busyGot_tag _ _ _ e he n hn
    refine ⟨disp_step h.disp trivial, ?_, ?_, ?_, ?_⟩
    · have := congrArg List.length hpe
      rw [List.length_map, List.length_map] at this
      simp only
      rw [List.length_set, this, h.len]
    · intro n t' p ht' hp
      simp only at ht' hp ⊢
      rw [hpe] at hp
      rw [List.append_assoc]
      refine tasks_set h hlt htag ?_ ht' hp
      intro q hq
      rw [hsp] at hq
      cases hq
      exact round_ok (h.tasks sid t _ ht hsp) hk i _
    · simp only
      rw [List.append_assoc]
      exact low_step hlt h.low htag
    · intro p
      simp only
      rw [List.append_assoc]
      refine flow_step h.disp (op := .recv sid w i) trivial p (h.flow p) _ _ (List.prefix_refl _) ?_ ?_
      · rw [gotBy_append, gotBy_read, List.nil_append]
        exact gotBy_got p sid se.peer _ _ _ w i rfl hsp
      · rw [cameFrom_append, cameFrom_got, List.append_nil]
        exact busyRead_messages p i _ rfl
  | timeout sid t k hc ht hk =>
    have hlt : sid < S.tasks.length := (List.getElem?_eq_some_iff.1 ht).1
    refine ⟨h.disp, by simpa using h.len, ?_, ?_, h.flow⟩
    · intro n t' p ht' hp
      have := tasks_set h hlt (l := []) (by simp) (fun q hq =>
        (h.tasks sid t q ht hq).silent (a := .recv) hk RecvOut.fail rfl (by intro m hm; cases hm) (by simp)) ht' hp
      simpa using this
    · have := low_step (t' := { prog := k .fail, done := t.done ++ [⟨.recv, RecvOut.fail⟩] }) hlt h.low (l := []) (by simp)
      simpa using this
  | send sid t se m k b ok gone hc ht hs hk hb hg =>
    have hlt : sid < S.tasks.length := (List.getElem?_eq_some_iff.1 ht).1
    have hsp : (S.sock.sessions.map (·.peer))[sid]? = some se.peer := by rw [List.getElem?_map, hs]; rfl
    have htag : ∀ e ∈ busySent sid se.peer b gone, ∀ n, tagOf e = some n → n = sid := by
      intro e he n hn
      cases gone with
      | false => simp [busySent] at he
      | true => simp only [busySent, if_true, List.mem_singleton] at he; subst he; simpa [tagOf] using hn.symm
    refine ⟨h.disp, by simpa using h.len, ?_, ?_, ?_⟩
    · intro n t' p ht' hp
      refine tasks_set h hlt htag ?_ ht' hp
      intro q hq
      rw [hsp] at hq
      cases hq
      refine (h.tasks sid t _ ht hsp).advance (a := .send m) hk ok ?_ ?_ ?_ ?_ ?_
      · cases gone <;> rfl
      · cases gone <;> simp [txOf, busySent]
      · intro m' hm'
        cases hm'
        exact ⟨b, hb, by simp [busySent, hg rfl]⟩
      · intro q' b' hb'
        cases gone with
        | false => simp [busySent] at hb'
        | true =>
          simp [busySent] at hb'
          exact ⟨hb'.1, m, rfl, by rw [hb'.2]; exact hb⟩
      · intro q' b' hb'
        cases gone <;> simp [busySent] at hb'
    · exact low_step hlt h.low htag
    · intro p
      have e1 : gotBy p (busySent sid se.peer b gone) = [] := by cases gone <;> rfl
      have e2 : cameFrom p (busySent sid se.peer b gone) = [] := by cases gone <;> rfl
      simp only
      rw [gotBy_append, e1, cameFrom_append, e2, List.append_nil, List.append_nil]
      exact h.flow p
  | other sid t a k x hc ht hk hr hns =>
    have hlt : sid < S.tasks.length := (List.getElem?_eq_some_iff.1 ht).1
    refine ⟨h.disp, by simpa using h.len, ?_, ?_, h.flow⟩
    · intro n t' p ht' hp
      have := tasks_set h hlt (l := []) (by simp) (fun q hq =>
        (h.tasks sid t q ht hq).silent hk x (by cases a <;> first | rfl | exact absurd rfl hr)
          (by intro m hm; cases hm; exact hns m rfl) (by simp)) ht' hp
      simpa using this
    · have := low_step (t' := { prog := k x, done := t.done ++ [⟨a, x⟩] }) hlt h.low (l := []) (by simp)
      simpa using this
  | close sid t r hc ht hk =>
    have hpe := step_peers h.disp (.close sid)
    have hac : acceptOf (UdpOp.close sid, (udpStep S.sock (.close sid)).1) = none := by
      have := udpStep_cases h.disp (.close sid)
      generalize (udpStep S.sock (.close sid)).1 = out at this
      generalize (udpStep S.sock (.close sid)).2 = s' at this
      cases this with
      | skip _ h => rcases h with rfl | rfl <;> rfl
      | _ => rfl
    rw [hac, Option.toList_none, List.append_nil] at hpe
    refine ⟨disp_step h.disp trivial, ?_, ?_, h.low, ?_⟩
    · have := congrArg List.length hpe
      rw [List.length_map, List.length_map] at this
      simp only
      rw [this, h.len]
    · intro n t' p ht' hp
      simp only at ht' hp ⊢
      rw [hpe] at hp
      exact h.tasks n t' p ht' hp
    · intro p
      have := flow_step h.disp (op := .close sid) trivial p (h.flow p) [] _ (List.prefix_refl _)
        (by cases (udpStep S.sock (.close sid)).1 <;> rfl) rfl
      simpa using this
  | reorder l hc hl =>
    have hpe := step_peers h.disp (.reorder l)
    have hout : (udpStep S.sock (.reorder l)).1 = .none := by simp [udpStep, hc]
    rw [hout] at hpe
    simp only [acceptOf, Option.toList_none, List.append_nil] at hpe
    refine ⟨disp_step h.disp hl, ?_, ?_, h.low, ?_⟩
    · have := congrArg List.length hpe
      rw [List.length_map, List.length_map] at this
      simp only
      rw [this, h.len]
    · intro n t' p ht' hp
      simp only at ht' hp ⊢
      rw [hpe] at hp
      exact h.tasks n t' p ht' hp
    · intro p
      have := flow_step h.disp (op := .reorder l) hl p (h.flow p) [] _ (List.prefix_refl _)
        (by rw [hout]; rfl) rfl
      simpa using this

theorem busyInv {mac : MacFn} {conf : Config} {max : Nat} {S : UdpBusy} (h : BusyReach mac conf max S) : BusyInv mac conf max S := by
  induction h with
  | start =>
    refine ⟨DispOk.new max, rfl, ?_, ?_, ?_⟩
    · intro sid t p ht; simp [UdpBusy.new] at ht
    · intro e he; simp [UdpBusy.new] at he
    · intro p; exact List.Sublist.refl _
  | step _ hs ih => exact busyInv_step ih hs

/-! ## C108 -/

/-- Numbers of sessions: if no number occurs more often in `A` than in `B`, then neither does any set of numbers. -/
theorem countP_le_of_count_le {A B : List Nat} (h : ∀ n, A.count n ≤ B.count n) (f : Nat → Bool) : A.countP f ≤ B.countP f := by
  induction A generalizing B with
  | nil => simp
  | cons a A ih =>
    have ha : a ∈ B := by
      have := h a
      rw [List.count_cons_self] at this
      exact List.count_pos_iff.1 (by omega)
    obtain ⟨s, t, rfl⟩ := List.append_of_mem ha
    have h1 : A.countP f ≤ (s ++ t).countP f := by
      apply ih
      intro n
      have := h n
      rw [List.count_append, List.count_cons, List.count_cons] at this
      rw [List.count_append]
      omega
    rw [List.countP_append, List.countP_cons, List.countP_cons]
    rw [List.countP_append] at h1
    omega

/-- The sessions that put something on the wire, once per datagram. -/
def txTags (log : List BusyEv) : List Nat :=
  log.filterMap (fun e => match e with | .tx n _ _ => some n | _ => none)

/-- The sessions that were given something, once per datagram. -/
def gotTags (log : List BusyEv) : List Nat :=
  log.filterMap (fun e => match e with | .got n _ _ => some n | _ => none)

theorem txTags_count (sid : Nat) (log : List BusyEv) : (txTags log).count sid = (txOf sid log).length := by
  induction log with
  | nil => rfl
  | cons e log ih =>
    cases e with
    | tx n q d =>
      by_cases hn : n = sid
      · subst hn; simpa [txTags, txOf] using ih
      · simpa [txTags, txOf, hn, List.count_cons] using ih
    | _ => simpa [txTags, txOf] using ih

theorem gotTags_count (sid : Nat) (log : List BusyEv) : (gotTags log).count sid = (gotOf sid log).length := by
  induction log with
  | nil => rfl
  | cons e log ih =>
    cases e with
    | got n q d =>
      by_cases hn : n = sid
      · subst hn; simpa [gotTags, gotOf] using ih
      · simpa [gotTags, gotOf, hn, List.count_cons] using ih
    | _ => simpa [gotTags, gotOf] using ih

theorem wentTo_length (p : SocketAddr) (peer : Nat → Option SocketAddr) (log : List BusyEv)
    (h : ∀ n q d, BusyEv.tx n q d ∈ log → peer n = some q) :
    (wentTo p log).length = (txTags log).countP (fun n => peer n == some p) := by
  induction log with
  | nil => rfl
  | cons e log ih =>
    have ih := ih (fun n q d hm => h n q d (List.mem_cons_of_mem _ hm))
    cases e with
    | tx n q d =>
      have hp := h n q d (List.mem_cons_self ..)
      by_cases hq : q = p
      · simpa [wentTo, toAddr, txTags, hq, hp, List.countP_cons] using ih
      · simpa [wentTo, toAddr, txTags, hq, hp, List.countP_cons] using ih
    | _ => simpa [wentTo, toAddr, txTags] using ih

theorem gotBy_length (p : SocketAddr) (peer : Nat → Option SocketAddr) (log : List BusyEv)
    (h : ∀ n q d, BusyEv.got n q d ∈ log → peer n = some q) :
    (gotBy p log).length = (gotTags log).countP (fun n => peer n == some p) := by
  induction log with
  | nil => rfl
  | cons e log ih =>
    have ih := ih (fun n q d hm => h n q d (List.mem_cons_of_mem _ hm))
    cases e with
    | got n q d =>
      have hp := h n q d (List.mem_cons_self ..)
      by_cases hq : q = p
      · simpa [gotBy, gotTags, hq, hp, List.countP_cons] using ih
      · simpa [gotBy, gotTags, hq, hp, List.countP_cons] using ih
    | _ => simpa [gotBy, gotTags] using ih

theorem task_of_lt {mac : MacFn} {conf : Config} {max : Nat} {S : UdpBusy} (h : BusyInv mac conf max S) {sid : Nat}
    (hlt : sid < S.tasks.length) : ∃ t p, S.tasks[sid]? = some t ∧ (S.sock.sessions.map (·.peer))[sid]? = some p ∧
      TaskOk mac conf S.log sid p t := by
  have h2 : sid < S.sock.sessions.length := h.len ▸ hlt
  have ht : S.tasks[sid]? = some S.tasks[sid] := List.getElem?_eq_getElem hlt
  have hp : (S.sock.sessions.map (·.peer))[sid]? = some S.sock.sessions[sid].peer := by
    rw [List.getElem?_map, List.getElem?_eq_getElem h2]; rfl
  exact ⟨_, _, ht, hp, h.tasks _ _ _ ht hp⟩

theorem busy_tags {mac : MacFn} {conf : Config} {max : Nat} {S : UdpBusy} (h : BusyInv mac conf max S) :
    (∀ n q d, BusyEv.tx n q d ∈ S.log → (S.sock.sessions.map (·.peer))[n]? = some q) ∧
    (∀ n q d, BusyEv.got n q d ∈ S.log → (S.sock.sessions.map (·.peer))[n]? = some q) := by
  constructor
  · intro n q d hm
    obtain ⟨t, p, -, hp, ht⟩ := task_of_lt h (h.low _ hm n rfl)
    rw [(ht.mine q d hm).1]; exact hp
  · intro n q d hm
    obtain ⟨t, p, -, hp, ht⟩ := task_of_lt h (h.low _ hm n rfl)
    rw [ht.own q d hm]; exact hp

theorem task_balance {mac : MacFn} {conf : Config} {max : Nat} {S : UdpBusy} (h : BusyInv mac conf max S) (sid : Nat) :
    (txOf sid S.log).length ≤ ((gotOf sid S.log).filterMap decoded).length := by
  by_cases hlt : sid < S.tasks.length
  · obtain ⟨t, p, -, -, ht⟩ := task_of_lt h hlt
    obtain ⟨q, hq, -⟩ := ht.reach
    have := C108_session mac conf p.ip t.done none hq.stopped t.done [] (by simp)
    rw [← ht.recv]
    exact Nat.le_trans ht.few this
  · rw [txOf_foreign (fun e he hc => hlt (h.low e he sid hc))]
    exact Nat.zero_le _

theorem asMessages_length (l : List Bytes) : (asMessages l).length = (l.filter (fun d => 56 ≤ d.length)).length := by
  induction l with
  | nil => rfl
  | cons d l ih => by_cases hd : 56 ≤ d.length <;> simpa [asMessages, hd] using ih

/-- **C108** (messages). At every moment, the number of datagrams sent to an address and port is at most the number of datagrams
of at least 56 bytes received from exactly there. -/
theorem C108_datagrams (mac : MacFn) (conf : Config) (max : Nat) (S : UdpBusy) (h : BusyReach mac conf max S) (p : SocketAddr) :
    (wentTo p S.log).length ≤ ((cameFrom p S.log).filter (fun d => 56 ≤ d.length)).length := by
  have hi := busyInv h
  obtain ⟨h1, h2⟩ := busy_tags hi
  have e1 := wentTo_length p (fun n => (S.sock.sessions.map (·.peer))[n]?) S.log h1
  have e2 := gotBy_length p (fun n => (S.sock.sessions.map (·.peer))[n]?) S.log h2
  have h3 := countP_le_of_count_le (A := txTags S.log) (B := gotTags S.log) (by
    intro n
    rw [txTags_count, gotTags_count]
    exact Nat.le_trans (task_balance hi n) (List.length_filterMap_le _ _))
    (fun n => (S.sock.sessions.map (·.peer))[n]? == some p)
  have h4 := (hi.flow p).length_le
  rw [List.length_append] at h4
  rw [← asMessages_length]
  omega

/-- Every datagram sent has 56 bytes. -/
theorem wentTo_size {mac : MacFn} {conf : Config} {max : Nat} {S : UdpBusy} (h : BusyInv mac conf max S) (p : SocketAddr) :
    ∀ d ∈ wentTo p S.log, d.length = 56 := by
  intro d hd
  obtain ⟨e, he, hx⟩ := List.mem_filterMap.1 hd
  cases e with
  | tx n q b =>
    simp only [toAddr] at hx
    by_cases hq : q = p
    · rw [if_pos hq] at hx
      cases hx
      obtain ⟨t, p', -, -, ht⟩ := task_of_lt h (h.low _ he n rfl)
      obtain ⟨-, m, -, hm⟩ := ht.mine q d he
      rw [serialize_eq] at hm
      cases hm
      have hs := m.salt.property
      have ha := m.auth.property
      simp [be32, hs, ha, SALT_SIZE, AUTH_SIZE]
    · rw [if_neg hq] at hx; cases hx
  | _ => simp [toAddr] at hx

/-- **C108** (bytes). letmeind is no amplifier: at every moment, the number of bytes it has sent to an address and port is at
most the number of bytes it has received from exactly there. -/
theorem C108_no_amplification (mac : MacFn) (conf : Config) (max : Nat) (S : UdpBusy) (h : BusyReach mac conf max S)
    (p : SocketAddr) : bytesIn (wentTo p S.log) ≤ bytesIn (cameFrom p S.log) := by
  have h1 := C108_datagrams mac conf max S h p
  have h2 : ∀ l : List Bytes, (∀ d ∈ l, d.length = 56) → bytesIn l = 56 * l.length := by
    intro l
    induction l with
    | nil => intro; rfl
    | cons d l ih =>
      intro hl
      have := ih (fun x hx => hl x (List.mem_cons_of_mem _ hx))
      have hd := hl d (List.mem_cons_self ..)
      simp only [bytesIn, List.map_cons, List.sum_cons, List.length_cons] at *
      omega
  have h3 : ∀ l : List Bytes, 56 * (l.filter (fun d => 56 ≤ d.length)).length ≤ bytesIn l := by
    intro l
    induction l with
    | nil => exact Nat.le_refl _
    | cons d l ih =>
      simp only [bytesIn, List.map_cons, List.sum_cons] at *
      by_cases hd : 56 ≤ d.length
      · rw [List.filter_cons_of_pos (by simpa using hd), List.length_cons]; omega
      · rw [List.filter_cons_of_neg (by simpa using hd)]; omega
  rw [h2 _ (wentTo_size (busyInv h) p)]
  exact Nat.le_trans (Nat.mul_le_mul_left 56 h1) (h3 _)

/-! ## C109 -/

theorem gotOf_sublist_gotBy {sid : Nat} {p : SocketAddr} {log : List BusyEv} (h : ∀ q b, BusyEv.got sid q b ∈ log → q = p) :
    (gotOf sid log).Sublist (gotBy p log) := by
  induction log with
  | nil => exact List.Sublist.refl _
  | cons e log ih =>
    have ih := ih (fun q b hm => h q b (List.mem_cons_of_mem _ hm))
    cases e with
    | got n q d =>
      by_cases hn : n = sid
      · have hq := h q d (by rw [hn]; exact List.mem_cons_self ..)
        simpa [gotOf, gotBy, hn, hq] using ih
      · by_cases hq : q = p
        · simpa [gotOf, gotBy, hn, hq] using ih.cons d
        · simpa [gotOf, gotBy, hn, hq] using ih
    | _ => simpa [gotOf, gotBy] using ih

theorem two_decoded {l : List Bytes} {a b : Message} (h : [a, b].Sublist (l.filterMap decoded)) :
    ∃ x y, [x, y].Sublist l ∧ Message.deserialize x = .ok a ∧ Message.deserialize y = .ok b := by
  obtain ⟨l', hl, he⟩ := List.sublist_filterMap_iff.1 h
  have hdec : ∀ {x m}, decoded x = some m → Message.deserialize x = .ok m := by
    intro x m hx
    unfold decoded at hx
    cases hd : Message.deserialize x with
    | ok m' => rw [hd] at hx; cases hx; rfl
    | err => rw [hd] at hx; cases hx
    | panic => rw [hd] at hx; cases hx
  obtain ⟨x, t, h1, -, hx, ht⟩ : ∃ x t, (x :: t).Sublist l' ∧ True ∧ decoded x = some a ∧ t.filterMap decoded = [b] := by
    clear hl
    induction l' with
    | nil => simp at he
    | cons y l' ih =>
      cases hy : decoded y with
      | none =>
        rw [List.filterMap_cons_none hy] at he
        obtain ⟨x, t, h1, h2⟩ := ih he
        exact ⟨x, t, h1.cons y, h2⟩
      | some m =>
        rw [List.filterMap_cons_some hy] at he
        injection he with e1 e2
        exact ⟨y, l', List.Sublist.refl _, trivial, by rw [hy, e1], e2.symm⟩
  obtain ⟨y, h2, hy⟩ : ∃ y ∈ t, decoded y = some b := List.mem_filterMap.1 (ht ▸ List.mem_singleton_self b)
  refine ⟨x, y, ?_, hdec hx, hdec hy⟩
  exact ((List.singleton_sublist.2 h2).cons₂ x).trans (h1.trans hl)

/-- **C109.** Whatever the other sessions do and whatever arrives from elsewhere: a session asks letmeinfwd to open a port only
for the address of its own peer, only a resource granted to the user who knocked, and only after two datagrams from exactly that
address and port: a valid Knock, and a valid Response to the challenge that this session made up and sent there. -/
theorem C109_open (mac : MacFn) (conf : Config) (max : Nat) (S : UdpBusy) (h : BusyReach mac conf max S) (sid : Nat)
    (m : FwMessage) (hm : m ∈ askedBy S sid) :
    ∃ (p : SocketAddr) (t : BusyTask) (kb rb cb : Bytes) (knock ch resp : Message) (nonce : Auth) (key : Key) (res : Resource)
      (pt : PortType),
      (S.sock.sessions.map (·.peer))[sid]? = some p ∧ S.tasks[sid]? = some t ∧
      [kb, rb].Sublist (asMessages (cameFrom p S.log)) ∧
      Message.deserialize kb = .ok knock ∧ Message.deserialize rb = .ok resp ∧
      ch.operation = .Challenge ∧ ch.auth = nonce ∧ (⟨.rand32, some nonce⟩ : Ev) ∈ t.done ∧
      ch.serialize = .ok cb ∧ cb ∈ wentTo p S.log ∧
      ValidKnock mac conf knock key ∧ Granted conf knock.user knock.resource res ∧
      ValidResponse mac key nonce resp ∧ resp.user = knock.user ∧ resp.resource = knock.resource ∧
      m = FwMessage.newOpen p.ip pt res.port ∧ opensTcp pt = res.tcp ∧ opensUdp pt = res.udp := by
  have hi := busyInv h
  unfold askedBy at hm
  cases ht : S.tasks[sid]? with
  | none => rw [ht] at hm; simp at hm
  | some t =>
    rw [ht] at hm
    obtain ⟨t', p, h1, hp, hok⟩ := task_of_lt hi (List.getElem?_eq_some_iff.1 ht).1
    rw [ht] at h1
    cases h1
    obtain ⟨e, he, hx⟩ := List.mem_filterMap.1 hm
    obtain ⟨pre, post, hs⟩ := List.append_of_mem he
    obtain ⟨q, hq, -⟩ := hok.reach
    obtain ⟨knock, ch, resp, nonce, key, res, pt, hf, hmm, htcp, hudp, -, -⟩ :=
      C08_request_content mac conf p.ip t.done none hq.stopped pre e post hs m hx
    have hsub : [knock, resp].Sublist ((gotOf sid S.log).filterMap decoded) := by
      rw [← hok.recv, hs, ← hf.recvOnly]
      unfold received
      rw [List.filterMap_append]
      exact List.sublist_append_left _ _
    obtain ⟨kb, rb, hkr, hk, hr⟩ := two_decoded hsub
    have hpre : ∀ x ∈ pre, x ∈ t.done := fun x hx => by rw [hs]; exact List.mem_append_left _ hx
    obtain ⟨cb, hcb, htx⟩ := hok.went ch (hpre _ (hf.order.subset (by simp)))
    refine ⟨p, t, kb, rb, cb, knock, ch, resp, nonce, key, res, pt, hp, rfl, ?_, hk, hr, hf.chOp, hf.chNonce,
      hpre _ (hf.order.subset (by simp)), hcb, ?_, hf.knockOk, hf.granted, hf.respOk, hf.sameUser, hf.sameResource, hmm, htcp, hudp⟩
    · exact hkr.trans ((gotOf_sublist_gotBy hok.own).trans ((List.sublist_append_left _ _).trans (hi.flow p)))
    · exact List.mem_filterMap.2 ⟨_, htx, by simp [toAddr]⟩

theorem asked_got {mac : MacFn} {conf : Config} {max : Nat} {S : UdpBusy} (hi : BusyInv mac conf max S) {sid : Nat}
    (h : ∃ m, m ∈ askedBy S sid) : 2 ≤ (gotOf sid S.log).length := by
  obtain ⟨m, hm⟩ := h
  unfold askedBy at hm
  cases ht : S.tasks[sid]? with
  | none => rw [ht] at hm; simp at hm
  | some t =>
    rw [ht] at hm
    obtain ⟨t', p, h1, -, hok⟩ := task_of_lt hi (List.getElem?_eq_some_iff.1 ht).1
    rw [ht] at h1
    cases h1
    obtain ⟨e, he, hx⟩ := List.mem_filterMap.1 hm
    obtain ⟨pre, post, hs⟩ := List.append_of_mem he
    obtain ⟨q, hq, -⟩ := hok.reach
    obtain ⟨knock, ch, resp, nonce, key, res, pt, hf, -⟩ :=
      C08_request_content mac conf p.ip t.done none hq.stopped pre e post hs m hx
    have h2 : 2 ≤ (received t.done).length := by
      rw [hs]
      have := hf.recvOnly
      unfold received at *
      rw [List.filterMap_append, this]
      simp only [List.length_append, List.length_cons]
      omega
    rw [hok.recv] at h2
    exact Nat.le_trans h2 (List.length_filterMap_le _ _)

/-- **C109** (no sharing). Every request costs two datagrams of its own: the requests of all sessions for an address and port are
at most half as many as the datagrams of at least 56 bytes that came from there. -/
theorem C109_two_datagrams_each (mac : MacFn) (conf : Config) (max : Nat) (S : UdpBusy) (h : BusyReach mac conf max S)
    (p : SocketAddr) (sids : List Nat) (hn : sids.Nodup)
    (hs : ∀ sid ∈ sids, (S.sock.sessions.map (·.peer))[sid]? = some p ∧ askedBy S sid ≠ []) :
    2 * sids.length ≤ ((cameFrom p S.log).filter (fun d => 56 ≤ d.length)).length := by
  have hi := busyInv h
  obtain ⟨h1, h2⟩ := busy_tags hi
  have e2 := gotBy_length p (fun n => (S.sock.sessions.map (·.peer))[n]?) S.log h2
  have h3 := countP_le_of_count_le (A := sids ++ sids) (B := gotTags S.log) (by
    intro n
    rw [gotTags_count, List.count_append]
    by_cases hm : n ∈ sids
    · have := asked_got hi (List.exists_mem_of_ne_nil _ (hs n hm).2)
      have := (List.nodup_iff_count.1 hn) n
      omega
    · rw [List.count_eq_zero_of_not_mem hm]; exact Nat.zero_le _)
    (fun n => (S.sock.sessions.map (·.peer))[n]? == some p)
  have h6 : sids.countP (fun n => (S.sock.sessions.map (·.peer))[n]? == some p) = sids.length :=
    List.countP_eq_length.2 (fun n hm => by simpa using (hs n hm).1)
  rw [List.countP_append, h6] at h3
  have h4 := (hi.flow p).length_le
  rw [List.length_append] at h4
  rw [← asMessages_length]
  omega

/-! ## A concrete run -/

/-- Commands for a concrete run. -/
inductive BusyCmd where
  | accept (i : SockIn)
  | recv (sid : Nat) (i : SockIn)
  | ans (sid : Nat) (x : Ans)
  | close (sid : Nat)

/-- Does the action use the network? -/
def onNet : Act → Bool
  | .recv => true
  | .send _ => true
  | _ => false

/-- One command; `none` if it does not fit. Sends succeed. -/
def busyDo (mac : MacFn) (conf : Config) (S : UdpBusy) : BusyCmd → Option UdpBusy
  | .accept i =>
    if S.sock.crashed then none else
    some { sock := (udpStep S.sock (.accept .readable i)).2,
           tasks := S.tasks ++ busyNewTask mac conf (udpStep S.sock (.accept .readable i)).1,
           log := S.log ++ busyRead i }
  | .recv sid i =>
    if S.sock.crashed then none else
    match S.tasks[sid]?, S.sock.sessions[sid]? with
    | some ⟨.act .recv k, done⟩, some se =>
      some { sock := (udpStep S.sock (.recv sid .readable i)).2,
             tasks := S.tasks.set sid (BusyTask.round ⟨.act .recv k, done⟩ k (udpStep S.sock (.recv sid .readable i)).1),
             log := S.log ++ busyRead i ++ busyGot sid se.peer (udpStep S.sock (.recv sid .readable i)).1 }
    | _, _ => none
  | .ans sid x =>
    if S.sock.crashed then none else
    match S.tasks[sid]?, S.sock.sessions[sid]? with
    | some ⟨.act (.send m) k, done⟩, some se =>
      match m.serialize with
      | .ok b =>
        some { S with
          tasks := S.tasks.set sid { prog := k true, done := done ++ [⟨.send m, true⟩] },
          log := S.log ++ busySent sid se.peer b true }
      | _ => none
    | some ⟨.act a k, done⟩, _ =>
      if onNet a then none else
      match x.as a with
      | some y => some { S with tasks := S.tasks.set sid { prog := k y, done := done ++ [⟨a, y⟩] } }
      | none => none
    | _, _ => none
  | .close sid =>
    if S.sock.crashed then none else
    match S.tasks[sid]? with
    | some ⟨.ret _, _⟩ => some { S with sock := (udpStep S.sock (.close sid)).2 }
    | _ => none

theorem busyDo_sound {mac : MacFn} {conf : Config} {S S' : UdpBusy} {c : BusyCmd} (h : busyDo mac conf S c = some S') :
    BusyStep mac conf S S' := by
  cases c with
  | accept i =>
    simp only [busyDo] at h
    split at h
    · cases h
    · rename_i hc
      cases h
      exact .accept .readable i (by simpa using hc)
  | recv sid i =>
    simp only [busyDo] at h
    split at h
    · cases h
    · rename_i hc
      split at h
      · rename_i k done se ht hs
        cases h
        exact .recv sid .readable i _ se k (by simpa using hc) ht hs rfl
      · cases h
  | ans sid x =>
    simp only [busyDo] at h
    split at h
    · cases h
    · rename_i hc
      split at h
      · rename_i m k done se ht hs
        split at h
        · rename_i b hb
          cases h
          exact .send sid _ se m k b true true (by simpa using hc) ht hs rfl hb (fun _ => rfl)
        · cases h
      · rename_i a k done ht hx
        split at h
        · cases h
        · rename_i hn
          split at h
          · rename_i y hy
            cases h
            exact .other sid _ a k y (by simpa using hc) ht rfl (by rintro rfl; exact hn rfl) (by rintro m rfl; exact hn rfl)
          · cases h
      · cases h
  | close sid =>
    simp only [busyDo] at h
    split at h
    · cases h
    · rename_i hc
      split at h
      · rename_i r d ht
        cases h
        exact .close sid _ r (by simpa using hc) ht rfl
      · cases h

/-- Several commands. -/
def busyDoAll (mac : MacFn) (conf : Config) (S : UdpBusy) : List BusyCmd → Option UdpBusy
  | [] => some S
  | c :: rest =>
    match busyDo mac conf S c with
    | some S => busyDoAll mac conf S rest
    | none => none

theorem busyDoAll_reach {mac : MacFn} {conf : Config} {max : Nat} {cs : List BusyCmd} {S S' : UdpBusy} (h : BusyReach mac conf max S)
    (hd : busyDoAll mac conf S cs = some S') : BusyReach mac conf max S' := by
  induction cs generalizing S with
  | nil => cases hd; exact h
  | cons c cs ih =>
    rw [busyDoAll] at hd
    cases hx : busyDo mac conf S c with
    | none => rw [hx] at hd; cases hd
    | some S1 => rw [hx] at hd; exact ih (.step h (busyDo_sound hx)) hd

/-- The bytes of a message. -/
def bytesOf (m : Message) : Bytes :=
  match m.serialize with
  | .ok b => b
  | _ => []

/-- Two hosts knock at the same time, their sessions are interleaved; the first answers its challenge and gets in, the second
sends garbage after its knock. A third host only sends a short datagram. -/
def busyCmds : List BusyCmd :=
  [.accept (.dgram exPeer (bytesOf exampleKnock)),
   .accept (.dgram exPeer2 (bytesOf exampleKnock ++ [1, 2, 3])),
   .recv 0 (.dgram exPeer2 (List.replicate 56 9)),
   .ans 0 (.r8 (some goodSalt)), .ans 0 (.r32 (some goodNonce)),
   .recv 1 .wouldBlock,
   .ans 1 (.r8 (some goodSalt)), .ans 0 (.bool true), .ans 1 (.r32 (some goodNonce)), .ans 1 (.bool true),
   .recv 1 (.dgram exPeer (bytesOf exampleResponse)),
   .recv 0 .wouldBlock,
   .ans 0 (.bool true), .ans 0 (.bool true), .ans 0 (.fw (.msg FwMessage.newAck)), .ans 0 (.r8 (some goodSalt)), .ans 0 (.bool true),
   .close 0, .close 1, .accept (.dgram ⟨examplePeer, 9⟩ [1, 2, 3])]

/-- The run ends; the first host was sent two datagrams for two, the second one for two; the first session alone asked for a port;
the hypotheses of C109 are met for it. -/
theorem busyCmds_run : ((busyDoAll toyMac exampleConf (UdpBusy.new 8) busyCmds).map (fun S =>
    [(wentTo exPeer S.log).length, (cameFrom exPeer S.log).length, (wentTo exPeer2 S.log).length,
      (cameFrom exPeer2 S.log).length]) = some [2, 2, 1, 2]) ∧
    ((busyDoAll toyMac exampleConf (UdpBusy.new 8) busyCmds).map (fun S => askedBy S 0) =
      some [FwMessage.newOpen exPeer.ip .Tcp 22]) ∧
    ((busyDoAll toyMac exampleConf (UdpBusy.new 8) busyCmds).map (fun S => askedBy S 1) = some []) := by
  refine ⟨?_, ?_, ?_⟩ <;> decide +kernel

/-- **C108** (the bound is reached). There are runs in which as many bytes go to an address as came from it. -/
theorem C108_bound_reached : ∃ mac conf max S p, BusyReach mac conf max S ∧
    bytesIn (wentTo p S.log) = bytesIn (cameFrom p S.log) ∧ 0 < bytesIn (wentTo p S.log) := by
  have hb : (busyDoAll toyMac exampleConf (UdpBusy.new 8) busyCmds).map (fun S =>
      (bytesIn (wentTo exPeer S.log), bytesIn (cameFrom exPeer S.log))) = some (112, 112) := by decide +kernel
  cases h : busyDoAll toyMac exampleConf (UdpBusy.new 8) busyCmds with
  | none => rw [h] at hb; cases hb
  | some S =>
    rw [h] at hb
    simp only [Option.map_some, Option.some.injEq, Prod.mk.injEq] at hb
    exact ⟨_, _, _, S, exPeer, busyDoAll_reach .start h, by rw [hb.1, hb.2], by rw [hb.1]; decide⟩

/-- A reachable state to which C108 and C109 apply non-trivially. -/
example : ∃ S, BusyReach toyMac exampleConf 8 S ∧ FwMessage.newOpen exPeer.ip .Tcp 22 ∈ askedBy S 0 ∧ (wentTo exPeer2 S.log).length = 1 := by
  obtain ⟨h1, h2, -⟩ := busyCmds_run
  cases h : busyDoAll toyMac exampleConf (UdpBusy.new 8) busyCmds with
  | none => rw [h] at h1; cases h1
  | some S =>
    rw [h] at h1 h2
    simp only [Option.map_some, Option.some.injEq, List.cons.injEq] at h1 h2
    exact ⟨S, busyDoAll_reach .start h, by rw [h2]; exact List.mem_singleton_self _, h1.2.2.1⟩

/-- A session of which C108 speaks: two messages received, two sent. -/
example : ((sent (play (session toyMac exampleConf examplePeer) exampleScript).1).length,
    (received (play (session toyMac exampleConf examplePeer) exampleScript).1).length) = (2, 2) := by
  decide +kernel

end Letmein.Props
