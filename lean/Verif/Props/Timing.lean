import Verif.Model.Timing
import Verif.Lemmas.Prog
import Verif.Props.Session

/-!
# Property C68: how long a session can take
-/

namespace Letmein.Spec

open Letmein Prog

/-- Does the action wait for the peer on the network? -/
def Act.peer : Act → Bool
  | .recv | .send _ => true
  | _ => false

/-- How long the whole took. -/
def totalTime (tr : List TimedEv) : Nat := (tr.map (·.2)).sum

/-- How long it waited for the peer. -/
def peerTime (tr : List TimedEv) : Nat := totalTime (tr.filter fun x => Act.peer x.1.1)

/-- How long it waited for others. -/
def otherTime (tr : List TimedEv) : Nat := totalTime (tr.filter fun x => !Act.peer x.1.1)

end Letmein.Spec

namespace Letmein.Props

open Letmein Prog Spec

/-! ### Counting the actions of a program -/

variable {α β : Type}

/-- At most `b` actions with the property, and at most `a` if the program ends with success. -/
def CountLe (q : Act → Bool) (p : Prog α) (a b : Nat) : Prop :=
  ∀ tr o, p.Trace tr o → tr.countP (fun e => q e.1) ≤ b ∧ ∀ v, o = some (.ok v) → tr.countP (fun e => q e.1) ≤ a

variable {q : Act → Bool}

theorem countLe_ret (r : R α) : CountLe q (.ret r) 0 0 := by
  rintro tr o ⟨rfl, _⟩
  simp

theorem CountLe.mono {p : Prog α} {a b a' b' : Nat} (h : CountLe q p a b) (ha : a ≤ a') (hb : b ≤ b') : CountLe q p a' b' := by
  intro tr o ht
  obtain ⟨h1, h2⟩ := h tr o ht
  exact ⟨by omega, fun v hv => Nat.le_trans (h2 v hv) ha⟩

/-- One action. -/
theorem countLe_act {x : Act} {k : x.Resp → Prog α} {a b : Nat} (h : ∀ y, CountLe q (k y) a b) :
    CountLe q (.act x k) (a + (q x).toNat) (b + (q x).toNat) := by
  intro tr o ht
  cases tr with
  | nil => simp
  | cons e tr =>
    obtain ⟨y, rfl, ht⟩ := ht
    obtain ⟨h1, h2⟩ := h y tr o ht
    rw [List.countP_cons]
    cases hq : q x <;> simp [hq] <;> exact ⟨by omega, fun v hv => by have := h2 v hv; omega⟩

theorem trace_bind {p : Prog α} {f : α → Prog β} {tr : List Ev} {o : Option (R β)} (h : (p >>= f).Trace tr o) :
    (∃ o', p.Trace tr o' ∧ ∀ v, o ≠ some (.ok v)) ∨
    ∃ t1 t2 v, tr = t1 ++ t2 ∧ p.Trace t1 (some (.ok v)) ∧ (f v).Trace t2 o := by
  change (Prog.bind p f).Trace tr o at h
  induction p generalizing tr with
  | ret r =>
    cases r with
    | ok a => exact .inr ⟨[], tr, a, rfl, ⟨rfl, .inr rfl⟩, h⟩
    | err =>
      obtain ⟨rfl, ho⟩ := h
      exact .inl ⟨none, ⟨rfl, .inl rfl⟩, fun v hv => by rcases ho with rfl | rfl <;> simp at hv⟩
    | panic =>
      obtain ⟨rfl, ho⟩ := h
      exact .inl ⟨none, ⟨rfl, .inl rfl⟩, fun v hv => by rcases ho with rfl | rfl <;> simp at hv⟩
  | act x k ih =>
    cases tr with
    | nil =>
      have ho : o = none := h
      exact .inl ⟨none, rfl, fun v hv => by rw [ho] at hv; cases hv⟩
    | cons e tr =>
      obtain ⟨y, rfl, h⟩ := h
      rcases ih y h with ⟨o', h1, h2⟩ | ⟨t1, t2, v, rfl, h1, h2⟩
      · exact .inl ⟨o', ⟨y, rfl, h1⟩, h2⟩
      · exact .inr ⟨⟨x, y⟩ :: t1, t2, v, rfl, ⟨y, rfl, h1⟩, h2⟩

theorem countLe_bind {p : Prog α} {f : α → Prog β} {a b c d : Nat} (hp : CountLe q p a b) (hf : ∀ v, CountLe q (f v) c d) :
    CountLe q (p >>= f) (a + c) (max b (a + d)) := by
  intro tr o ht
  rcases trace_bind ht with ⟨o', h1, h2⟩ | ⟨t1, t2, v, rfl, h1, h2⟩
  · exact ⟨Nat.le_trans (hp tr o' h1).1 (Nat.le_max_left _ _), fun v hv => absurd hv (h2 v)⟩
  · have h3 := (hp t1 _ h1).2 v rfl
    obtain ⟨h4, h5⟩ := hf v t2 o h2
    rw [List.countP_append]
    refine ⟨?_, fun w hw => ?_⟩
    · have := Nat.le_max_right b (a + d); omega
    · have := h5 w hw; omega

theorem trace_ignore {p : Prog α} {tr : List Ev} {o : Option (R Unit)} (h : p.ignore.Trace tr o) : ∃ o', p.Trace tr o' := by
  induction p generalizing tr with
  | ret r =>
    have : tr = [] := by cases r <;> exact h.1
    exact ⟨none, this, .inl rfl⟩
  | act x k ih =>
    cases tr with
    | nil => exact ⟨none, rfl⟩
    | cons e tr =>
      obtain ⟨y, rfl, h⟩ := h
      obtain ⟨o', h'⟩ := ih y h
      exact ⟨o', y, rfl, h'⟩

theorem countLe_ignore {p : Prog α} {a b : Nat} (hp : CountLe q p a b) : CountLe q p.ignore b b := by
  intro tr o ht
  obtain ⟨o', h⟩ := trace_ignore ht
  exact ⟨(hp tr o' h).1, fun _ _ => (hp tr o' h).1⟩

theorem trace_orElse {p r : Prog α} {tr : List Ev} {o : Option (R α)} (h : (p.orElse r).Trace tr o) :
    (p.Trace tr o) ∨ ∃ t1 t2, tr = t1 ++ t2 ∧ p.Trace t1 (some .err) ∧ r.Trace t2 o := by
  induction p generalizing tr with
  | ret x =>
    cases x with
    | ok a => exact .inl h
    | err => exact .inr ⟨[], tr, rfl, ⟨rfl, .inr rfl⟩, h⟩
    | panic => exact .inl h
  | act x k ih =>
    cases tr with
    | nil => exact .inl h
    | cons e tr =>
      obtain ⟨y, rfl, h⟩ := h
      rcases ih y h with h | ⟨t1, t2, rfl, h1, h2⟩
      · exact .inl ⟨y, rfl, h⟩
      · exact .inr ⟨⟨x, y⟩ :: t1, t2, rfl, ⟨y, rfl, h1⟩, h2⟩

theorem countLe_orElse {p r : Prog α} {a b c d : Nat} (hp : CountLe q p a b) (hr : CountLe q r c d) :
    CountLe q (p.orElse r) (max a (b + c)) (b + d) := by
  intro tr o ht
  rcases trace_orElse ht with h | ⟨t1, t2, rfl, h1, h2⟩
  · obtain ⟨h3, h4⟩ := hp tr o h
    exact ⟨by omega, fun v hv => Nat.le_trans (h4 v hv) (Nat.le_max_left _ _)⟩
  · have h3 := (hp t1 _ h1).1
    obtain ⟨h4, h5⟩ := hr t2 o h2
    rw [List.countP_append]
    refine ⟨by omega, fun v hv => ?_⟩
    have := h5 v hv
    have := Nat.le_max_right a (b + c)
    omega

/-- A program that never succeeds. -/
theorem countLe_fails {p : Prog α} {a b c : Nat} (hp : CountLe q p a b) (h : ∀ tr v, ¬ p.Trace tr (some (.ok v))) : CountLe q p c b := by
  intro tr o ht
  refine ⟨(hp tr o ht).1, fun v hv => ?_⟩
  rw [hv] at ht
  exact absurd ht (h tr v)

/-! ### The programs -/

/-- Costs of the actions: of sending, of receiving, of 8 and of 32 random bytes, of each action with letmeinfwd, of connecting. -/
structure Costs (q : Act → Bool) (s r x f c : Nat) : Prop where
  send : ∀ m, (q (.send m)).toNat = s
  recv : (q .recv).toNat = r
  rand8 : (q .rand8).toNat = x
  rand32 : (q .rand32).toNat = x
  fwConnect : (q .fwConnect).toNat = f
  fwSend : ∀ m, (q (.fwSend m)).toNat = f
  fwRecv : (q .fwRecv).toNat = f
  connect : (q .connect).toNat = c

variable {s r x f c : Nat}

theorem newMessage_count (hq : Costs q s r x f c) (op : Operation) (u : UserId) (i : ResourceId) : CountLe q (newMessage op u i) x x := by
  unfold newMessage
  exact (countLe_act fun _ => countLe_ret _).mono (by rw [hq.rand8]; omega) (by rw [hq.rand8]; omega)

theorem generateChallenge_count (hq : Costs q s r x f c) (m : Message) : CountLe q (generateChallenge m) x x := by
  unfold generateChallenge
  refine (countLe_bind (countLe_ret _) fun _ => countLe_act fun _ => countLe_ret _).mono ?_ ?_ <;> rw [hq.rand32] <;> omega

theorem sendMsg_count (hq : Costs q s r x f c) (m : Message) : CountLe q (sendMsg m) s s := by
  unfold sendMsg
  exact (countLe_act fun _ => countLe_ret _).mono (by rw [hq.send]; omega) (by rw [hq.send]; omega)

theorem sendGoAway_count (hq : Costs q s r x f c) (conf : Config) (st : PState) : CountLe q (sendGoAway conf st) (x + s) (x + s) := by
  unfold sendGoAway
  split
  · exact (countLe_bind (newMessage_count hq _ _ _) fun m => sendMsg_count hq m).mono (by omega) (by omega)
  · exact (countLe_ret _).mono (by omega) (by omega)

theorem reject_count (hq : Costs q s r x f c) (conf : Config) (st : PState) : CountLe q (reject (α := α) conf st) 0 (x + s) := by
  unfold reject
  refine countLe_fails ((countLe_bind (countLe_ignore (sendGoAway_count hq conf st)) fun _ => countLe_ret _).mono (Nat.le_refl _) (by omega)) ?_
  intro tr v h
  rcases trace_bind h with ⟨_, _, h⟩ | ⟨_, _, _, _, _, h⟩
  · exact h v rfl
  · rcases h.2 with h | h <;> simp at h

theorem recvMsg_count (hq : Costs q s r x f c) (conf : Config) (st : PState) (e : Operation) : CountLe q (recvMsg conf st e) r (r + x + s) := by
  unfold recvMsg
  refine (countLe_act (a := 0) (b := x + s) fun y => ?_).mono (by rw [hq.recv]; omega) (by rw [hq.recv]; omega)
  have h0 : ∀ z : R Message, CountLe q (.ret z) 0 (x + s) := fun z => (countLe_ret z).mono (by omega) (by omega)
  cases y with
  | fail => exact h0 _
  | disconnected => exact h0 _
  | msg m =>
    simp only
    have hite : ∀ {P : Prop} [Decidable P] {p p' : Prog Message}, CountLe q p 0 (x + s) → CountLe q p' 0 (x + s) →
        CountLe q (if P then p else p') 0 (x + s) := by
      intro P _ p p' h h'
      split
      · exact h
      · exact h'
    exact hite (reject_count hq conf st) (hite (reject_count hq conf st) (hite (reject_count hq conf st) (h0 _)))

theorem fwConnect_count (hq : Costs q s r x f c) : CountLe q fwConnect f f := by
  unfold fwConnect
  exact (countLe_act fun _ => countLe_ret _).mono (by rw [hq.fwConnect]; omega) (by rw [hq.fwConnect]; omega)

theorem fwOpenPort_count (hq : Costs q s r x f c) (a : IpAddr) (t : PortType) (p : UInt16) : CountLe q (fwOpenPort a t p) (2 * f) (2 * f) := by
  unfold fwOpenPort
  refine (countLe_act (a := f) (b := f) fun y => ?_).mono (by rw [hq.fwSend]; omega) (by rw [hq.fwSend]; omega)
  have h0 : ∀ z : R Unit, CountLe q (.ret z) 0 0 := fun z => countLe_ret z
  split
  · refine (countLe_act (a := 0) (b := 0) fun y => ?_).mono (by rw [hq.fwRecv]; omega) (by rw [hq.fwRecv]; omega)
    cases y with
    | fail => exact h0 _
    | disconnected => exact h0 _
    | msg m => simp only; split <;> exact h0 _
  · exact (h0 _).mono (by omega) (by omega)

theorem sessionOpen_count (hq : Costs q s r x f c) (conf : Config) (peer : IpAddr) (u : UserId) (i : ResourceId) (res : Resource) (st : PState) :
    CountLe q (sessionOpen conf peer u i res st) (3 * f + x + s) (3 * f + x + s) := by
  unfold sessionOpen
  refine (countLe_bind (countLe_ret _) fun _ => countLe_bind (countLe_orElse (fwConnect_count hq) (reject_count hq conf st)) fun _ =>
    countLe_bind (countLe_ret _) fun _ => countLe_bind (countLe_orElse (fwOpenPort_count hq _ _ _) (reject_count hq conf st)) fun _ =>
    countLe_bind (newMessage_count hq _ _ _) fun _ => sendMsg_count hq _).mono ?_ ?_ <;> omega

theorem sessionChallenge_count (hq : Costs q s r x f c) (mac : MacFn) (conf : Config) (peer : IpAddr) (u : UserId) (i : ResourceId) (key : Key)
    (res : Resource) (st : PState) :
    CountLe q (sessionChallenge mac conf peer u i key res st) (3 * f + 3 * x + 2 * s + r) (3 * f + 3 * x + 2 * s + r) := by
  unfold sessionChallenge
  refine (countLe_bind (newMessage_count hq _ _ _) fun _ => countLe_bind (generateChallenge_count hq _) fun _ =>
    countLe_bind (sendMsg_count hq _) fun _ => countLe_bind (recvMsg_count hq conf st _) fun _ => countLe_bind (countLe_ret _) fun ok =>
    (?_ : CountLe q _ (3 * f + x + s) (3 * f + x + s))).mono ?_ ?_
  · split
    · exact (reject_count hq conf st).mono (by omega) (by omega)
    · exact sessionOpen_count hq _ _ _ _ _ _
  · omega
  · omega

theorem session_count (hq : Costs q s r x f c) (mac : MacFn) (conf : Config) (peer : IpAddr) :
    CountLe q (session mac conf peer) (3 * f + 3 * x + 2 * s + 2 * r) (3 * f + 3 * x + 2 * s + 2 * r) := by
  unfold session
  have hrej : ∀ st, CountLe q (reject (α := Unit) conf st) (3 * f + 3 * x + 2 * s + r) (3 * f + 3 * x + 2 * s + r) := fun st =>
    (reject_count hq conf st).mono (by omega) (by omega)
  refine (countLe_bind (recvMsg_count hq conf _ _) fun knock =>
    (?_ : CountLe q _ (3 * f + 3 * x + 2 * s + r) (3 * f + 3 * x + 2 * s + r))).mono (by omega) (by omega)
  simp only
  split
  · exact hrej _
  · refine (countLe_bind (countLe_ret _) fun ok =>
      (?_ : CountLe q _ (3 * f + 3 * x + 2 * s + r) (3 * f + 3 * x + 2 * s + r))).mono (by omega) (by omega)
    split
    · exact hrej _
    · split
      · exact hrej _
      · split
        · exact hrej _
        · split
          · exact hrej _
          · exact sessionChallenge_count hq _ _ _ _ _ _ _ _

theorem knock_count (hq : Costs q s r x f c) (mac : MacFn) (u : UserId) (i : ResourceId) (key : Key) :
    CountLe q (knockSequence mac u i key) (c + 2 * x + 2 * s + 2 * r) (c + 2 * x + 2 * s + 2 * r) := by
  have hcon : CountLe q clientConnect c c := by
    unfold clientConnect
    exact (countLe_act fun _ => countLe_ret _).mono (by rw [hq.connect]; omega) (by rw [hq.connect]; omega)
  have hrecv : ∀ op, CountLe q (recvSpecificMsg op) r r := by
    intro op
    unfold recvSpecificMsg
    refine (countLe_act (a := 0) (b := 0) fun y => ?_).mono (by rw [hq.recv]; omega) (by rw [hq.recv]; omega)
    cases y with
    | fail => exact countLe_ret _
    | disconnected => exact countLe_ret _
    | msg m => simp only; split; exact countLe_ret _; split <;> exact countLe_ret _
  unfold knockSequence
  refine (countLe_bind hcon fun _ => countLe_bind (newMessage_count hq _ _ _) fun _ => countLe_bind (countLe_ret _) fun _ =>
    countLe_bind (sendMsg_count hq _) fun _ => countLe_bind (hrecv _) fun _ => countLe_bind (countLe_ret _) fun _ =>
    countLe_bind (newMessage_count hq _ _ _) fun _ => countLe_bind (countLe_ret _) fun _ => countLe_bind (sendMsg_count hq _) fun _ =>
    countLe_bind (hrecv _) fun _ => countLe_ret _).mono ?_ ?_ <;> omega

theorem peer_costs : Costs Act.peer 1 1 0 0 0 := ⟨fun _ => rfl, rfl, rfl, rfl, rfl, fun _ => rfl, rfl, rfl⟩
theorem other_costs : Costs (fun a => !Act.peer a) 0 0 1 1 1 := ⟨fun _ => rfl, rfl, rfl, rfl, rfl, fun _ => rfl, rfl, rfl⟩

theorem totalTime_le (q : Act → Bool) (b : Nat) (tr : List TimedEv) (h : ∀ x ∈ tr, q x.1.1 = true → x.2 ≤ b) :
    totalTime (tr.filter fun x => q x.1.1) ≤ (tr.map (·.1)).countP (fun e => q e.1) * b := by
  induction tr with
  | nil => simp [totalTime]
  | cons e tr ih =>
    have ih := ih fun x hx => h x (List.mem_cons_of_mem _ hx)
    simp only [List.map_cons, List.countP_cons, List.filter_cons]
    cases hq : q e.1.1 with
    | false => simpa using ih
    | true =>
      have hb : @LE.le Nat _ e.2 b := h e (by simp) hq
      simp only [totalTime, if_true, List.map_cons, List.sum_cons] at ih ⊢
      rw [Nat.add_mul]
      omega

theorem totalTime_split (q : Act → Bool) (tr : List TimedEv) :
    totalTime tr = totalTime (tr.filter fun x => q x.1.1) + totalTime (tr.filter fun x => !q x.1.1) := by
  induction tr with
  | nil => rfl
  | cons e tr ih =>
    simp only [totalTime, List.filter_cons] at ih ⊢
    cases hq : q e.1.1 <;> simp <;> omega

theorem inTime_peer {T : Duration} {tr : List TimedEv} (h : InTime T tr) : ∀ x ∈ tr, Act.peer x.1.1 = true → x.2 ≤ T := by
  rintro ⟨⟨a, y⟩, d⟩ hx hp
  have := h _ hx T
  cases a <;> simp [Act.peer] at hp <;> exact this rfl

/-- **C68** (letmeind, the peer). However the peer behaves, a session waits for it at most four times the control timeout in total, also if the session
is still in progress. -/
theorem C68_session_peer_time (mac : MacFn) (conf : Config) (peer : IpAddr) {tr : List TimedEv} {o : Option (R Unit)}
    (ht : (session mac conf peer).Trace (tr.map (·.1)) o) (hin : InTime conf.controlTimeout tr) : peerTime tr ≤ 4 * conf.controlTimeout := by
  have h1 := totalTime_le Act.peer conf.controlTimeout tr (inTime_peer hin)
  have h2 := (session_count peer_costs mac conf peer _ _ ht).1
  exact Nat.le_trans h1 (Nat.mul_le_mul_right _ (by omega))

/-- **C68** (letmeind, in total; partial). What remains are at most six waits for the random generator and letmeinfwd. Missing: these have no time
limit (`C68_session_no_limit`). -/
theorem C68_session_total_partial (mac : MacFn) (conf : Config) (peer : IpAddr) {tr : List TimedEv} {o : Option (R Unit)}
    (ht : (session mac conf peer).Trace (tr.map (·.1)) o) (hin : InTime conf.controlTimeout tr) (limit : Duration)
    (hother : ∀ x ∈ tr, Act.peer x.1.1 = false → x.2 ≤ limit) : totalTime tr ≤ 4 * conf.controlTimeout + 6 * limit := by
  have h1 := C68_session_peer_time mac conf peer ht hin
  have h2 := totalTime_le (fun a => !Act.peer a) limit tr (by simpa using hother)
  have h3 := (session_count other_costs mac conf peer _ _ ht).1
  have h4 := Nat.mul_le_mul_right limit (show _ ≤ 6 from h3)
  rw [totalTime_split Act.peer tr]
  exact Nat.add_le_add h1 (Nat.le_trans h2 h4)

/-- **C68** (client, the server). The exchange with the server waits for it at most four times the control timeout. -/
theorem C68_client_peer_time (mac : MacFn) (u : UserId) (r : ResourceId) (key : Key) (timeout : Duration) {tr : List TimedEv} {o : Option (R Unit)}
    (ht : (knockSequence mac u r key).Trace (tr.map (·.1)) o) (hin : InTime timeout tr) : peerTime tr ≤ 4 * timeout := by
  have h1 := totalTime_le Act.peer timeout tr (inTime_peer hin)
  have h2 := (knock_count peer_costs mac u r key _ _ ht).1
  exact Nat.le_trans h1 (Nat.mul_le_mul_right _ (by omega))

/-- **C68** (client, in total; partial). What remains is establishing the connection and two waits for the random generator. Missing: establishing the
connection has no time limit (`C68_client_no_limit`). -/
theorem C68_client_total_partial (mac : MacFn) (u : UserId) (r : ResourceId) (key : Key) (timeout : Duration) {tr : List TimedEv} {o : Option (R Unit)}
    (ht : (knockSequence mac u r key).Trace (tr.map (·.1)) o) (hin : InTime timeout tr) (limit : Duration)
    (hother : ∀ x ∈ tr, Act.peer x.1.1 = false → x.2 ≤ limit) : totalTime tr ≤ 4 * timeout + 3 * limit := by
  have h1 := C68_client_peer_time mac u r key timeout ht hin
  have h2 := totalTime_le (fun a => !Act.peer a) limit tr (by simpa using hother)
  have h3 := (knock_count other_costs mac u r key _ _ ht).1
  have h4 := Nat.mul_le_mul_right limit (show _ ≤ 3 from h3)
  rw [totalTime_split Act.peer tr]
  exact Nat.add_le_add h1 (Nat.le_trans h2 h4)

/-- C68 as stated, for letmeind: there is a time after which every session has ended. -/
def C68_statement_session : Prop :=
  ∀ (mac : MacFn) (conf : Config) (peer : IpAddr), ∃ bound, ∀ (tr : List TimedEv) (o : Option (R Unit)),
    (session mac conf peer).Trace (tr.map (·.1)) o → InTime conf.controlTimeout tr → (∀ x ∈ tr, x.1.1 = .rand8 ∨ x.1.1 = .rand32 → x.2 = 0) →
    totalTime tr ≤ bound

/-- C68 as stated, for the client. -/
def C68_statement_client : Prop :=
  ∀ (mac : MacFn) (u : UserId) (r : ResourceId) (key : Key) (timeout : Duration), ∃ bound, ∀ (tr : List TimedEv) (o : Option (R Unit)),
    (knockSequence mac u r key).Trace (tr.map (·.1)) o → InTime timeout tr → (∀ x ∈ tr, x.1.1 = .rand8 ∨ x.1.1 = .rand32 → x.2 = 0) →
    totalTime tr ≤ bound

/-- C68 is not true of the client: there is no time limit for connecting (a firewall on the way that drops the packets). -/
theorem C68_client_no_limit : ¬ C68_statement_client := by
  intro h
  obtain ⟨bound, h⟩ := h toyMac ⟨1⟩ ⟨1⟩ (Arr.replicate 32 7) 0
  have := h [(⟨.connect, false⟩, bound + 1)] (some .err) ⟨false, rfl, rfl, .inr rfl⟩ (by
    rintro x hx t ht
    simp only [List.mem_singleton] at hx
    subst hx
    cases ht) (by
    rintro x hx ht
    simp only [List.mem_singleton] at hx
    subst hx
    simp at ht)
  exact absurd (show bound + 1 ≤ bound by simpa [totalTime] using this) (Nat.not_succ_le_self _)

/-- The run of the example session in which the answer of letmeinfwd takes the given time, and everything else none. -/
def slowFw (d : Duration) : List TimedEv :=
  (play (session toyMac exampleConf examplePeer) exampleScript).1.map fun e => (e, if e.1 = .fwRecv then d else 0)

/-- C68 is not true of letmeind: there is no time limit for the answer of letmeinfwd. -/
theorem C68_session_no_limit : ¬ C68_statement_session := by
  intro h
  obtain ⟨bound, h⟩ := h toyMac exampleConf examplePeer
  have hm : (slowFw (bound + 1)).map (·.1) = (play (session toyMac exampleConf examplePeer) exampleScript).1 := by
    unfold slowFw
    rw [List.map_map]
    exact List.map_id'' (fun _ => rfl) _
  have hval : ∀ x ∈ slowFw (bound + 1), x.1.1 ≠ .fwRecv → x.2 = 0 := by
    intro x hx hne
    obtain ⟨e, _, rfl⟩ := List.mem_map.1 hx
    exact if_neg hne
  have hin : InTime exampleConf.controlTimeout (slowFw (bound + 1)) := by
    intro x hx t ht
    rw [hval x hx (fun he => by rw [he] at ht; cases ht)]
    exact Nat.zero_le _
  have hle := h (slowFw (bound + 1)) _ (by rw [hm]; exact play_trace _ _) hin
    (fun x hx hr => hval x hx (fun he => by rw [he] at hr; simp at hr))
  have hmem : ((⟨.fwRecv, .msg FwMessage.newAck⟩ : Ev), bound + 1) ∈ slowFw (bound + 1) := by
    unfold slowFw
    refine List.mem_map.2 ⟨⟨.fwRecv, .msg FwMessage.newAck⟩, ?_, rfl⟩
    decide +kernel
  have hsum : ∀ (l : List TimedEv) y, y ∈ l → @LE.le Nat _ y.2 (totalTime l) := by
    intro l y hy
    induction l with
    | nil => cases hy
    | cons z l ih =>
      simp only [totalTime, List.map_cons, List.sum_cons] at ih ⊢
      rcases List.mem_cons.1 hy with rfl | hy
      · exact Nat.le_add_right _ _
      · exact Nat.le_trans (ih hy) (Nat.le_add_left _ _)
  exact absurd (Nat.le_trans (hsum _ _ hmem) hle) (Nat.not_succ_le_self _)

/-- The bound is attained: a peer that always answers at the last moment. -/
def slowPeer : List TimedEv :=
  (play (session toyMac exampleConf examplePeer) exampleScript).1.map fun e => (e, if Act.peer e.1 then exampleConf.controlTimeout else 0)

example : InTime exampleConf.controlTimeout slowPeer ∧ peerTime slowPeer = 4 * exampleConf.controlTimeout ∧
    (session toyMac exampleConf examplePeer).Trace (slowPeer.map (·.1)) (some (.ok ())) ∧ exampleConf.controlTimeout = 5000000000 := by
  refine ⟨?_, by decide +kernel, ?_, by decide⟩
  · intro x hx t ht
    obtain ⟨⟨a, y⟩, _, rfl⟩ := List.mem_map.1 hx
    cases a <;> simp [Act.limit] at ht <;> subst ht <;> exact Nat.le_refl _
  · have hm : slowPeer.map (·.1) = (play (session toyMac exampleConf examplePeer) exampleScript).1 := by
      unfold slowPeer
      rw [List.map_map]
      exact List.map_id'' (fun _ => rfl) _
    have hr : (play (session toyMac exampleConf examplePeer) exampleScript).2 = some (.ok ()) := by decide +kernel
    rw [hm, ← hr]
    exact play_trace _ _

end Letmein.Props
