import Verif.Model.Session
import Verif.Lemmas.Prog
import Verif.Spec.Session
import Verif.Props.Wire

/-!
# Proof rule for the server session

`session_ok` turns "every trace of the session satisfies `P` and `F`" into one obligation per stage.
-/

set_option linter.unusedSimpArgs false

namespace Letmein

open Prog Spec

/-- The GoAway message of a state. -/
def goAwayMsg (st : PState) (s : Salt) : Message :=
  Message.new .GoAway (st.userId.getD ⟨0xFFFFFFFF⟩) (st.resourceId.getD ⟨0xFFFFFFFF⟩) s

theorem Ok_reject {α : Type} {P : List Ev → Ev → Prop} {F : List Ev → R α → Prop} {conf : Config} {st : PState}
    {h : List Ev} :
    Ok P F (reject conf st) h ↔
      if goAwayAllowed conf.controlErrorPolicy st.authState then
        ∀ raw, P h ⟨.rand8, raw⟩ ∧
          match secureRandom 8 raw with
          | .ok s => ∀ b, P (h ++ [⟨.rand8, raw⟩]) ⟨.send (goAwayMsg st s), b⟩ ∧
              F (h ++ [⟨.rand8, raw⟩] ++ [⟨.send (goAwayMsg st s), b⟩]) .err
          | .err => F (h ++ [⟨.rand8, raw⟩]) .err
          | .panic => F (h ++ [⟨.rand8, raw⟩]) .panic
      else F h .err := by
  rw [reject, Ok_bind, Ok_ignore, sendGoAway]
  split
  · rw [Ok_bind, newMessage, Ok_act]
    refine forall_congr' fun raw => and_congr Iff.rfl ?_
    rw [Ok_ret]
    cases secureRandom 8 raw with
    | ok s =>
      simp only [R.bind_ok, bindF, ignoreF, sendMsg, Ok_act, Ok_ret, goAwayMsg]
      refine forall_congr' fun b => and_congr Iff.rfl ?_
      cases b <;> simp [ignoreF, bindF, Ok_ret]
    | err => simp [bindF, ignoreF, Ok_ret]
    | panic => simp [bindF, ignoreF, Ok_ret]
  · simp [ignoreF, bindF, Ok_ret]

theorem secureRandom_ne_err (n : Nat) (raw : Option (Arr n)) : secureRandom n raw ≠ .err := by
  unfold secureRandom
  intro h
  cases raw with
  | none => by_cases h1 : n ≥ 8 <;> simp [rassert, h1] at h
  | some b =>
    by_cases h1 : n ≥ 8 <;> simp [rassert, h1] at h
    by_cases h2 : b = Arr.replicate n 0 <;> simp [h2] at h
    by_cases h3 : b = Arr.replicate n 255 <;> simp [h3] at h
    cases hb : b.val with
    | nil => simp [hb] at h
    | cons x l =>
      simp only [hb] at h
      by_cases h4 : (∀ y ∈ l, y = x)
      · rw [if_neg (by simpa using h4)] at h; simp at h
      · rw [if_pos (by simpa using h4)] at h; simp at h

theorem secureRandom_ok (n : Nat) (raw : Option (Arr n)) (s : Arr n) (h : secureRandom n raw = .ok s) : raw = some s := by
  unfold secureRandom at h
  cases raw with
  | none => by_cases h1 : n ≥ 8 <;> simp [rassert, h1] at h
  | some b =>
    by_cases h1 : n ≥ 8 <;> simp [rassert, h1] at h
    by_cases h2 : b = Arr.replicate n 0 <;> simp [h2] at h
    by_cases h3 : b = Arr.replicate n 255 <;> simp [h3] at h
    cases hb : b.val with
    | nil => simp [hb] at h
    | cons x l =>
      simp only [hb] at h
      by_cases h4 : (∀ y ∈ l, y = x)
      · rw [if_neg (by simpa using h4)] at h; simp at h
      · rw [if_pos (by simpa using h4)] at h; simp at h; rw [h]

theorem reject_ok {α : Type} {P : List Ev → Ev → Prop} {F : List Ev → R α → Prop} {conf : Config} {st : PState}
    {h : List Ev}
    (h1 : goAwayAllowed conf.controlErrorPolicy st.authState = true → ∀ raw, P h ⟨.rand8, raw⟩)
    (h2 : goAwayAllowed conf.controlErrorPolicy st.authState = true → ∀ s b,
      P (h ++ [⟨.rand8, some s⟩]) ⟨.send (goAwayMsg st s), b⟩)
    (h3 : goAwayAllowed conf.controlErrorPolicy st.authState = true → ∀ s b,
      F (h ++ [⟨.rand8, some s⟩, ⟨.send (goAwayMsg st s), b⟩]) .err)
    (h4 : ∀ raw, secureRandom 8 raw = .panic → F (h ++ [⟨.rand8, raw⟩]) .panic)
    (h5 : goAwayAllowed conf.controlErrorPolicy st.authState = false → F h .err) :
    Ok P F (reject conf st) h := by
  rw [Ok_reject]
  split
  · rename_i ha
    intro raw
    refine ⟨h1 ha raw, ?_⟩
    cases hs : secureRandom 8 raw with
    | err => exact absurd hs (secureRandom_ne_err _ _)
    | panic => exact h4 raw hs
    | ok s =>
      have := secureRandom_ok _ _ _ hs
      subst this
      intro b
      refine ⟨h2 ha s b, ?_⟩
      rw [List.append_assoc]
      exact h3 ha s b
  · rename_i ha
    exact h5 (by simpa using ha)

theorem secureRandom_some (n : Nat) (hn : 8 ≤ n) (b : Arr n) :
    ((∃ x, ∀ y ∈ b.val, y = x) → secureRandom n (some b) = .panic) ∧
    ((¬ ∃ x, ∀ y ∈ b.val, y = x) → secureRandom n (some b) = .ok b) := by
  have hl := b.property
  unfold secureRandom
  simp only [rassert, ge_iff_le, hn, decide_true, if_true, R.bind_ok]
  by_cases h2 : b = Arr.replicate n 0
  · have : ∃ x, ∀ y ∈ b.val, y = x := ⟨0, by rw [h2]; simp [Arr.replicate]⟩
    simp [h2] at this ⊢
    exact this
  by_cases h3 : b = Arr.replicate n 255
  · have : ∃ x, ∀ y ∈ b.val, y = x := ⟨255, by rw [h3]; simp [Arr.replicate]⟩
    simp only [ne_eq, h2, not_false_eq_true, decide_true, if_true, R.bind_ok]
    simp [h3] at this ⊢
    exact this
  simp only [ne_eq, h2, h3, not_false_eq_true, decide_true, if_true, R.bind_ok]
  cases hb : b.val with
  | nil => simp [hb] at hl; omega
  | cons x l =>
    simp only
    constructor
    · rintro ⟨z, hz⟩
      have : ∀ y ∈ l, y = x := fun y hy => (hz y (by simp [hy])).trans (hz x (by simp)).symm
      rw [if_neg (by simpa using this)]; rfl
    · intro hne
      have : ¬ ∀ y ∈ l, y = x := fun hc => hne ⟨x, by simpa using hc⟩
      rw [if_pos (by simpa using this)]; rfl

theorem secureRandom_panic_iff (n : Nat) (hn : 8 ≤ n) (raw : Option (Arr n)) :
    secureRandom n raw = .panic ↔ Spec.BadRandom raw := by
  unfold Spec.BadRandom
  cases raw with
  | none => simp [secureRandom, rassert, hn]
  | some b =>
    obtain ⟨h1, h2⟩ := secureRandom_some n hn b
    constructor
    · intro h
      by_cases hc : ∃ x, ∀ y ∈ b.val, y = x
      · obtain ⟨x, hx⟩ := hc
        exact .inr ⟨b, x, rfl, hx⟩
      · rw [h2 hc] at h; simp at h
    · rintro (h | ⟨b', x, h, hx⟩)
      · simp at h
      · injection h with h; subst h; exact h1 ⟨x, hx⟩

/-! ### Histories at the stages of a session -/

/-- After receiving the Knock. -/
def hist1 (knock : Message) : List Ev := [⟨.recv, .msg knock⟩]
/-- After making the challenge. -/
def hist2 (knock : Message) (s : Salt) (n : Auth) : List Ev := hist1 knock ++ [⟨.rand8, some s⟩, ⟨.rand32, some n⟩]
/-- The challenge. -/
def challengeMsg (knock : Message) (s : Salt) (n : Auth) : Message :=
  { Message.new .Challenge knock.user knock.resource s with auth := n }
/-- After receiving the message following the challenge. -/
def hist3 (knock : Message) (s : Salt) (n : Auth) (resp : Message) : List Ev :=
  hist2 knock s n ++ [⟨.send (challengeMsg knock s n), true⟩, ⟨.recv, .msg resp⟩]
/-- After the firewall has answered. -/
def hist4 (knock : Message) (s : Salt) (n : Auth) (resp : Message) (req reply : FwMessage) : List Ev :=
  hist3 knock s n resp ++ [⟨.fwConnect, true⟩, ⟨.fwSend req, true⟩, ⟨.fwRecv, .msg reply⟩]

/-- Everything that is wrong with a response. -/
def BadResponse (mac : MacFn) (key : Key) (knock : Message) (n : Auth) (resp : Message) : Prop :=
  resp.user ≠ knock.user ∨ resp.resource ≠ knock.resource ∨ ¬ ValidResponse mac key n resp

/-- One obligation per stage. -/
structure SessionObl (mac : MacFn) (conf : Config) (peer : IpAddr) (P : List Ev → Ev → Prop)
    (F : List Ev → R Unit → Prop) : Prop where
  first : ∀ x, P [] ⟨.recv, x⟩
  firstFail : F [⟨.recv, .fail⟩] .err
  firstDisc : F [⟨.recv, .disconnected⟩] .err
  notKnock : ∀ m, m.operation ≠ .Knock → Ok P F (reject conf ⟨none, none, .NotAuth⟩) (hist1 m)
  badKnock : ∀ m, m.operation = .Knock → (∀ key, ¬ ValidKnock mac conf m key) →
    Ok P F (reject conf ⟨some m.user, some m.resource, .NotAuth⟩) (hist1 m)
  denied : ∀ m key, ValidKnock mac conf m key → (∀ res, ¬ Granted conf m.user m.resource res) →
    Ok P F (reject conf ⟨some m.user, some m.resource, .BasicAuth⟩) (hist1 m)
  chSalt : ∀ m key res raw, ValidKnock mac conf m key → Granted conf m.user m.resource res →
    P (hist1 m) ⟨.rand8, raw⟩ ∧ (secureRandom 8 raw = .panic → F (hist1 m ++ [⟨.rand8, raw⟩]) .panic)
  chNonce : ∀ m key res s raw, ValidKnock mac conf m key → Granted conf m.user m.resource res →
    P (hist1 m ++ [⟨.rand8, some s⟩]) ⟨.rand32, raw⟩ ∧
    (secureRandom 32 raw = .panic → F (hist1 m ++ [⟨.rand8, some s⟩, ⟨.rand32, raw⟩]) .panic)
  chSend : ∀ m key res s n b, ValidKnock mac conf m key → Granted conf m.user m.resource res →
    P (hist2 m s n) ⟨.send (challengeMsg m s n), b⟩
  chSendFail : ∀ m key res s n, ValidKnock mac conf m key → Granted conf m.user m.resource res →
    F (hist2 m s n ++ [⟨.send (challengeMsg m s n), false⟩]) .err
  recv2 : ∀ m key res s n x, ValidKnock mac conf m key → Granted conf m.user m.resource res →
    P (hist2 m s n ++ [⟨.send (challengeMsg m s n), true⟩]) ⟨.recv, x⟩
  recv2Fail : ∀ m key res s n x, ValidKnock mac conf m key → Granted conf m.user m.resource res →
    (x = .fail ∨ x = .disconnected) →
    F (hist2 m s n ++ [⟨.send (challengeMsg m s n), true⟩, ⟨.recv, x⟩]) .err
  badResponse : ∀ m key res s n resp, ValidKnock mac conf m key → Granted conf m.user m.resource res →
    BadResponse mac key m n resp →
    Ok P F (reject conf ⟨some m.user, some m.resource, .BasicAuth⟩) (hist3 m s n resp)
  noProto : ∀ m key res s n resp, ValidKnock mac conf m key → Granted conf m.user m.resource res →
    FullAuth mac conf (hist3 m s n resp) m (challengeMsg m s n) resp n key res →
    res.portType = .panic → F (hist3 m s n resp) .panic
  fwConnect : ∀ m key res s n resp b, FullAuth mac conf (hist3 m s n resp) m (challengeMsg m s n) resp n key res →
    P (hist3 m s n resp) ⟨.fwConnect, b⟩
  fwConnectFail : ∀ m key res s n resp,
    FullAuth mac conf (hist3 m s n resp) m (challengeMsg m s n) resp n key res →
    Ok P F (reject conf ⟨some m.user, some m.resource, .ChallengeResponseAuth⟩)
      (hist3 m s n resp ++ [⟨.fwConnect, false⟩])
  fwSend : ∀ m key res s n resp pt b,
    FullAuth mac conf (hist3 m s n resp) m (challengeMsg m s n) resp n key res → res.portType = .ok pt →
    P (hist3 m s n resp ++ [⟨.fwConnect, true⟩]) ⟨.fwSend (FwMessage.newOpen peer pt res.port), b⟩
  fwSendFail : ∀ m key res s n resp pt,
    FullAuth mac conf (hist3 m s n resp) m (challengeMsg m s n) resp n key res → res.portType = .ok pt →
    Ok P F (reject conf ⟨some m.user, some m.resource, .ChallengeResponseAuth⟩)
      (hist3 m s n resp ++ [⟨.fwConnect, true⟩, ⟨.fwSend (FwMessage.newOpen peer pt res.port), false⟩])
  fwRecv : ∀ m key res s n resp pt x,
    FullAuth mac conf (hist3 m s n resp) m (challengeMsg m s n) resp n key res → res.portType = .ok pt →
    P (hist3 m s n resp ++ [⟨.fwConnect, true⟩, ⟨.fwSend (FwMessage.newOpen peer pt res.port), true⟩]) ⟨.fwRecv, x⟩
  fwRecvFail : ∀ m key res s n resp pt x,
    FullAuth mac conf (hist3 m s n resp) m (challengeMsg m s n) resp n key res → res.portType = .ok pt →
    (∀ reply, x = .msg reply → reply.operation ≠ .Ack) →
    Ok P F (reject conf ⟨some m.user, some m.resource, .ChallengeResponseAuth⟩)
      (hist3 m s n resp ++
        [⟨.fwConnect, true⟩, ⟨.fwSend (FwMessage.newOpen peer pt res.port), true⟩, ⟨.fwRecv, x⟩])
  ciSalt : ∀ m key res s n resp pt reply raw,
    FullAuth mac conf (hist3 m s n resp) m (challengeMsg m s n) resp n key res → res.portType = .ok pt →
    reply.operation = .Ack →
    P (hist4 m s n resp (FwMessage.newOpen peer pt res.port) reply) ⟨.rand8, raw⟩ ∧
    (secureRandom 8 raw = .panic →
      F (hist4 m s n resp (FwMessage.newOpen peer pt res.port) reply ++ [⟨.rand8, raw⟩]) .panic)
  ciSend : ∀ m key res s n resp pt reply s' b,
    FullAuth mac conf (hist3 m s n resp) m (challengeMsg m s n) resp n key res → res.portType = .ok pt →
    reply.operation = .Ack →
    P (hist4 m s n resp (FwMessage.newOpen peer pt res.port) reply ++ [⟨.rand8, some s'⟩])
      ⟨.send (Message.new .ComeIn m.user m.resource s'), b⟩ ∧
    F (hist4 m s n resp (FwMessage.newOpen peer pt res.port) reply ++
      [⟨.rand8, some s'⟩, ⟨.send (Message.new .ComeIn m.user m.resource s'), b⟩]) (if b then .ok () else .err)

theorem containsUser_iff (res : Resource) (u : UserId) :
    res.containsUser u = true ↔ res.users = [] ∨ u ∈ res.users := by
  unfold Resource.containsUser
  cases h : res.users <;> simp

theorem rejectF {P : List Ev → Ev → Prop} {F : List Ev → R Unit → Prop} {α : Type} {conf : Config} {st : PState}
    {h : List Ev} {f : α → Prog Unit} (hr : Ok P F (reject conf st) h) :
    Ok P (bindF P F f) (reject conf st : Prog α) h := by
  rw [Ok_reject] at hr ⊢
  split
  · rename_i ha
    rw [if_pos ha] at hr
    intro raw
    refine ⟨(hr raw).1, ?_⟩
    have h2 := (hr raw).2
    cases hs : secureRandom 8 raw with
    | ok s => rw [hs] at h2; exact h2
    | err => rw [hs] at h2; exact h2
    | panic => rw [hs] at h2; exact h2
  · rename_i ha
    rw [if_neg ha] at hr
    exact hr

theorem sessionOpen_ok {mac : MacFn} {conf : Config} {peer : IpAddr} {P : List Ev → Ev → Prop}
    {F : List Ev → R Unit → Prop} (ob : SessionObl mac conf peer P F)
    (m : Message) (key : Key) (res : Resource) (s : Salt) (n : Auth) (resp : Message)
    (hv : ValidKnock mac conf m key) (hg : Granted conf m.user m.resource res)
    (hf : FullAuth mac conf (hist3 m s n resp) m (challengeMsg m s n) resp n key res) :
    Ok P F (sessionOpen conf peer m.user m.resource res ⟨some m.user, some m.resource, .ChallengeResponseAuth⟩)
      (hist3 m s n resp) := by
  rw [sessionOpen, Ok_bind, Ok_ret]
  cases hpt : res.portType with
  | err => unfold Resource.portType at hpt; split at hpt <;> simp at hpt
  | panic => exact ob.noProto m key res s n resp hv hg hf hpt
  | ok pt =>
    simp only [bindF]
    rw [Ok_bind, Ok_orElse, Letmein.fwConnect, Ok_act]
    intro b
    refine ⟨ob.fwConnect m key res s n resp b hf, ?_⟩
    rw [Ok_ret]
    cases b with
    | false =>
      simp only [orElseF, Bool.false_eq_true, if_false]
      exact rejectF (ob.fwConnectFail m key res s n resp hf)
    | true =>
      simp only [orElseF, if_true, bindF]
      rw [Ok_bind, Ok_ret]
      simp only [rassert, decide_true, if_true, bindF]
      rw [Ok_bind, Ok_orElse, fwOpenPort, Ok_act]
      intro b
      refine ⟨ob.fwSend m key res s n resp pt b hf hpt, ?_⟩
      cases b with
      | false =>
        simp only [orElseF, Bool.false_eq_true, if_false, Ok_ret]
        have := ob.fwSendFail m key res s n resp pt hf hpt
        rw [List.append_assoc]
        exact rejectF this
      | true =>
        simp only [if_true]
        rw [Ok_act]
        intro x
        rw [List.append_assoc]
        refine ⟨ob.fwRecv m key res s n resp pt x hf hpt, ?_⟩
        have hfail : (∀ reply, x = .msg reply → reply.operation ≠ .Ack) → _ :=
          fun hx => ob.fwRecvFail m key res s n resp pt x hf hpt hx
        rw [List.append_assoc]
        cases x with
        | fail => simp only [Ok_ret, orElseF]; exact rejectF (hfail (by simp))
        | disconnected => simp only [Ok_ret, orElseF]; exact rejectF (hfail (by simp))
        | msg reply =>
          cases hop : reply.operation with
          | Nack =>
            simp only [hop, Ok_ret, orElseF]
            refine rejectF (hfail ?_)
            intro r hr; injection hr with hr; subst hr; rw [hop]; decide
          | Open =>
            simp only [hop, Ok_ret, orElseF]
            refine rejectF (hfail ?_)
            intro r hr; injection hr with hr; subst hr; rw [hop]; decide
          | Ack =>
            simp only [hop, Ok_ret, orElseF, bindF]
            rw [Ok_bind, newMessage, Ok_act]
            intro raw
            obtain ⟨h1, h2⟩ := ob.ciSalt m key res s n resp pt reply raw hf hpt hop
            refine ⟨h1, ?_⟩
            rw [Ok_ret]
            cases hs : secureRandom 8 raw with
            | err => exact absurd hs (secureRandom_ne_err _ _)
            | panic => exact h2 hs
            | ok s' =>
              have := secureRandom_ok _ _ _ hs
              subst this
              simp only [R.bind_ok, bindF, sendMsg]
              rw [Ok_act]
              intro b
              obtain ⟨h3, h4⟩ := ob.ciSend m key res s n resp pt reply s' b hf hpt hop
              refine ⟨h3, ?_⟩
              rw [Ok_ret, List.append_assoc]
              exact h4

theorem fullAuth_hist3 (mac : MacFn) (conf : Config) (m : Message) (key : Key) (res : Resource) (s : Salt) (n : Auth)
    (resp : Message) (hv : ValidKnock mac conf m key) (hg : Granted conf m.user m.resource res)
    (hb : ¬ BadResponse mac key m n resp) :
    FullAuth mac conf (hist3 m s n resp) m (challengeMsg m s n) resp n key res := by
  simp only [BadResponse, not_or, ne_eq, Classical.not_not] at hb
  obtain ⟨h1, h2, h3⟩ := hb
  refine ⟨rfl, rfl, ?_, hv, hg, rfl, rfl, h3, h1, h2⟩
  exact .cons_cons _ (.cons _ (.cons_cons _ (.cons_cons _ (.cons_cons _ .slnil))))

theorem sessionChallenge_ok {mac : MacFn} {conf : Config} {peer : IpAddr} {P : List Ev → Ev → Prop}
    {F : List Ev → R Unit → Prop} (ob : SessionObl mac conf peer P F)
    (m : Message) (key : Key) (res : Resource)
    (hv : ValidKnock mac conf m key) (hg : Granted conf m.user m.resource res) :
    Ok P F (sessionChallenge mac conf peer m.user m.resource key res ⟨some m.user, some m.resource, .BasicAuth⟩)
      (hist1 m) := by
  rw [sessionChallenge, Ok_bind, newMessage, Ok_act]
  intro raw
  obtain ⟨h1, h2⟩ := ob.chSalt m key res raw hv hg
  refine ⟨h1, ?_⟩
  rw [Ok_ret]
  cases hs : secureRandom 8 raw with
  | err => exact absurd hs (secureRandom_ne_err _ _)
  | panic => exact h2 hs
  | ok s =>
    have := secureRandom_ok _ _ _ hs
    subst this
    simp only [R.bind_ok, bindF]
    rw [Ok_bind, generateChallenge, Ok_bind, Ok_ret]
    simp only [rassert, Message.new, decide_true, if_true, bindF]
    rw [Ok_act]
    intro raw
    obtain ⟨h3, h4⟩ := ob.chNonce m key res s raw hv hg
    refine ⟨h3, ?_⟩
    rw [Ok_ret, List.append_assoc]
    cases hn : secureRandom 32 raw with
    | err => exact absurd hn (secureRandom_ne_err _ _)
    | panic => exact h4 hn
    | ok n =>
      have := secureRandom_ok _ _ _ hn
      subst this
      simp only [R.bind_ok, bindF, Message.generateChallenge, rassert, decide_true, if_true]
      rw [Ok_bind, sendMsg, Ok_act]
      intro b
      refine ⟨ob.chSend m key res s n b hv hg, ?_⟩
      rw [Ok_ret]
      cases b with
      | false =>
        simp only [bindF, Bool.false_eq_true, if_false]
        exact ob.chSendFail m key res s n hv hg
      | true =>
        simp only [bindF, if_true]
        rw [Ok_bind, recvMsg, Ok_act]
        intro x
        refine ⟨ob.recv2 m key res s n x hv hg, ?_⟩
        have hfail := ob.recv2Fail m key res s n x hv hg
        rw [List.append_assoc (_ ++ _)]
        cases x with
        | fail => simp only [Ok_ret, bindF]; exact hfail (by simp)
        | disconnected => simp only [Ok_ret, bindF]; exact hfail (by simp)
        | msg resp =>
          have hbad := ob.badResponse m key res s n resp hv hg
          by_cases hop : resp.operation = .Response
          rotate_left
          · simp only [ne_eq, hop, not_false_eq_true, if_true]
            exact rejectF (hbad (.inr (.inr fun hc => hop hc.op)))
          by_cases hu : resp.user = m.user
          rotate_left
          · simp only [ne_eq, hop, not_true, if_false, hu, not_false_eq_true, decide_true, if_true]
            exact rejectF (hbad (.inl hu))
          by_cases hr : resp.resource = m.resource
          rotate_left
          · simp only [ne_eq, hop, not_true, if_false, hu, not_false_eq_true, decide_true, if_true, hr, decide_false,
              Bool.false_eq_true]
            exact rejectF (hbad (.inr (.inl hr)))
          simp only [ne_eq, hop, not_true, if_false, hu, not_false_eq_true, decide_true, if_true, hr, decide_false,
            Bool.false_eq_true, Ok_ret, bindF]
          rw [Ok_bind, Ok_ret]
          have hch : ∀ b, resp.checkAuthOk mac key (challengeMsg m s n) = .ok b ↔
              (b = true ↔ ValidResponse mac key n resp) := by
            intro b
            have h := Props.C04_check_response_iff mac resp (challengeMsg m s n) key
            have hd : ∃ b, resp.checkAuthOk mac key (challengeMsg m s n) = .ok b := by
              simp [Message.checkAuthOk, rassert, challengeMsg, Message.new, hop]
            obtain ⟨b', hb'⟩ := hd
            have hvr : b' = true ↔ ValidResponse mac key n resp := by
              rw [hb'] at h
              constructor
              · intro hb; subst hb
                obtain ⟨_, _, h3⟩ := h.1 rfl
                exact ⟨hop, h3⟩
              · intro hvr
                have := h.2 ⟨hop, rfl, hvr.tag⟩
                injection this
            rw [hb']
            constructor
            · intro hb; injection hb with hb; subst hb; exact hvr
            · intro hb
              have : b' = true ↔ b = true := hvr.trans hb.symm
              congr 1
              exact Bool.eq_iff_iff.2 this
          by_cases hvr : ValidResponse mac key n resp
          · have hc := (hch true).2 (by simpa using hvr)
            have hnb : ¬ BadResponse mac key m n resp := by simp [BadResponse, hu, hr, hvr]
            have hf := fullAuth_hist3 mac conf m key res s n resp hv hg hnb
            have hgoal := sessionOpen_ok ob m key res s n resp hv hg hf
            simp only [challengeMsg, Message.new] at hc
            rw [hc]
            simp only [bindF, Bool.not_true, Bool.false_eq_true, if_false]
            exact hgoal
          · have hc := (hch false).2 (by simpa using hvr)
            simp only [challengeMsg, Message.new] at hc
            rw [hc]
            simp only [bindF, Bool.not_false, if_true]
            exact hbad (.inr (.inr hvr))

theorem session_ok {mac : MacFn} {conf : Config} {peer : IpAddr} {P : List Ev → Ev → Prop}
    {F : List Ev → R Unit → Prop} (ob : SessionObl mac conf peer P F) : Ok P F (session mac conf peer) [] := by
  rw [session, Ok_bind, recvMsg, Ok_act]
  intro x
  refine ⟨ob.first x, ?_⟩
  cases x with
  | fail => exact ob.firstFail
  | disconnected => exact ob.firstDisc
  | msg m =>
    by_cases hop : m.operation = .Knock
    rotate_left
    · simp only [ne_eq, hop, not_false_eq_true, if_true]
      exact rejectF (ob.notKnock m hop)
    simp only [ne_eq, hop, not_true, if_false, Bool.false_eq_true, Ok_ret, bindF]
    cases hk : conf.key m.user with
    | none =>
      refine ob.badKnock m hop ?_
      intro key hv; have := hv.known; rw [hk] at this; simp at this
    | some key =>
      simp only
      rw [Ok_bind, Ok_ret]
      have hch := Props.C04_check_knock_iff mac m key
      by_cases hv : ValidKnock mac conf m key
      rotate_left
      · have : m.checkAuthOkNoChallenge mac key = .ok false := by
          have hd : ∃ b, m.checkAuthOkNoChallenge mac key = .ok b := by
            simp [Message.checkAuthOkNoChallenge, rassert, hop]
          obtain ⟨b, hb⟩ := hd
          cases b with
          | false => exact hb
          | true => exact absurd ⟨hop, hk, (hch.1 hb).2⟩ hv
        rw [this]
        simp only [bindF, Bool.not_false, if_true]
        refine ob.badKnock m hop ?_
        intro key' hv'
        have := hv'.known
        rw [hk] at this
        injection this with this
        subst this
        exact hv hv'
      · rw [hch.2 ⟨hop, hv.tag⟩]
        simp only [bindF, Bool.not_true, Bool.false_eq_true, if_false]
        cases hr : conf.resource m.resource with
        | none =>
          refine ob.denied m key hv ?_
          intro res hg; have := hg.configured; rw [hr] at this; simp at this
        | some res =>
          simp only
          by_cases hu : res.containsUser m.user = true
          rotate_left
          · simp only [hu, Bool.not_eq_true]
            refine ob.denied m key hv ?_
            intro res' hg
            have := hg.configured
            rw [hr] at this
            injection this with this
            subst this
            exact hu ((containsUser_iff _ _).2 hg.allowed)
          simp only [hu, Bool.not_true, Bool.false_eq_true, if_false]
          by_cases hp : res.port = conf.port.port
          · simp only [hp, if_true]
            refine ob.denied m key hv ?_
            intro res' hg
            have := hg.configured
            rw [hr] at this
            injection this with this
            subst this
            exact hg.notControl hp
          · simp only [hp, if_false]
            exact sessionChallenge_ok ob m key res hv ⟨hr, (containsUser_iff _ _).1 hu, hp⟩

end Letmein
