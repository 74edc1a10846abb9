import Verif.Lemmas.Session
import Verif.Props.FwWire

/-!
# Properties C07–C12: the server session

All theorems are about every trace of the session program: every sequence of answers of the peer, of letmeinfwd, of the
random number generator, including failures, and every point at which the session may be stopped.
-/

set_option linter.unusedSimpArgs false

namespace Letmein.Props

open Letmein Prog Spec

attribute [local simp] hist1 hist2 hist3 hist4 received sent fwRequests recvd sentMsg fwReq isFw challengeMsg goAwayMsg
  Message.new List.filterMap_cons

/-- Close an obligation that holds because the event at hand is irrelevant. -/
local macro "irr" : tactic =>
  `(tactic| first | trivial | (exfalso; rename_i hx; (simp at hx; done)) | (refine ⟨?_, ?_⟩ <;> intros <;>
    first | trivial | (exfalso; rename_i hx; (simp at hx; done))))

/-- Split into obligations and close the irrelevant ones. -/
local macro "obl" : tactic =>
  `(tactic| (intros; try first | irr | (refine reject_ok ?_ ?_ ?_ ?_ ?_ <;> intros <;> irr)))

/-- Contacting the firewall daemon does not change what was received and sent. -/
theorem fullAuth_append {mac : MacFn} {conf : Config} {pre ext : List Ev} {k c r : Message} {n : Auth} {key : Key}
    {res : Resource} (h : FullAuth mac conf pre k c r n key res) (he : ∀ e ∈ ext, recvd e = none ∧ sentMsg e = none) :
    FullAuth mac conf (pre ++ ext) k c r n key res := by
  have e1 : received ext = [] := by
    rw [received, List.filterMap_eq_nil_iff]; exact fun e h => (he e h).1
  have e2 : sent ext = [] := by
    rw [sent, List.filterMap_eq_nil_iff]; exact fun e h => (he e h).2
  refine ⟨?_, ?_, ?_, h.knockOk, h.granted, h.chOp, h.chNonce, h.respOk, h.sameUser, h.sameResource⟩
  · have := h.recvOnly
    simp only [received, List.filterMap_append] at *
    rw [this, e1]; rfl
  · have := h.sentOnly
    simp only [sent, List.filterMap_append] at *
    rw [this, e2]; rfl
  · exact h.order.trans (List.sublist_append_left _ _)

/-- **C07**. Whenever the session contacts letmeinfwd, the complete authentication has taken place before. -/
theorem C07_no_request_without_full_auth (mac : MacFn) (conf : Config) (peer : IpAddr) (tr : List Ev)
    (o : Option (R Unit)) (ht : (session mac conf peer).Trace tr o)
    (pre : List Ev) (e : Ev) (post : List Ev) (hs : tr = pre ++ e :: post) (he : isFw e = true) :
    ∃ knock ch resp nonce key res, FullAuth mac conf pre knock ch resp nonce key res := by
  have ob : SessionObl mac conf peer
      (fun h e => isFw e = true → ∃ k c r n key res, FullAuth mac conf h k c r n key res) (fun _ _ => True) := by
    constructor <;> obl
    case fwConnect hf _ => exact ⟨_, _, _, _, _, _, hf⟩
    case fwSend hf _ _ => exact ⟨_, _, _, _, _, _, fullAuth_append hf (by simp)⟩
    case fwRecv hf _ _ => exact ⟨_, _, _, _, _, _, fullAuth_append hf (by simp)⟩
  exact ((session_ok ob).sound ht).1 pre e post hs he

theorem portType_spec {res : Resource} {pt : PortType} (h : res.portType = .ok pt) :
    opensTcp pt = res.tcp ∧ opensUdp pt = res.udp := by
  unfold Resource.portType at h
  split at h <;> simp at h <;> subst h <;> simp_all [opensTcp, opensUdp]

/-- **C08** (content). The request asks for the peer's own address and the port and protocols of the
resource named in the (authenticated) Knock; it is not the control port; it is the first request of the session. -/
theorem C08_request_content (mac : MacFn) (conf : Config) (peer : IpAddr) (tr : List Ev)
    (o : Option (R Unit)) (ht : (session mac conf peer).Trace tr o)
    (pre : List Ev) (e : Ev) (post : List Ev) (hs : tr = pre ++ e :: post) (m : FwMessage) (he : fwReq e = some m) :
    ∃ knock ch resp nonce key res pt, FullAuth mac conf pre knock ch resp nonce key res ∧
      m = FwMessage.newOpen peer pt res.port ∧ opensTcp pt = res.tcp ∧ opensUdp pt = res.udp ∧
      res.port ≠ conf.port.port ∧ fwRequests pre = [] := by
  have ob : SessionObl mac conf peer
      (fun h e => fwReq e = some m → ∃ k c r n key res pt, FullAuth mac conf h k c r n key res ∧
        m = FwMessage.newOpen peer pt res.port ∧ opensTcp pt = res.tcp ∧ opensUdp pt = res.udp ∧
        res.port ≠ conf.port.port ∧ fwRequests h = []) (fun _ _ => True) := by
    constructor <;> obl
    case fwSend hf hpt hx =>
      simp only [fwReq, Option.some.injEq] at hx
      obtain ⟨h1, h2⟩ := portType_spec hpt
      exact ⟨_, _, _, _, _, _, _, fullAuth_append hf (by simp), hx.symm, h1, h2, hf.granted.notControl, by simp⟩
  exact ((session_ok ob).sound ht).1 pre e post hs he

theorem filterMap_length_le_one {α β : Type} (f : α → Option β) (l : List α)
    (h : ∀ pre e post b, l = pre ++ e :: post → f e = some b → pre.filterMap f = []) : (l.filterMap f).length ≤ 1 := by
  induction l with
  | nil => simp
  | cons a l ih =>
    cases hf : f a with
    | none =>
      rw [List.filterMap_cons_none hf]
      refine ih (fun pre e post b he hb => ?_)
      have := h (a :: pre) e post b (by simp [he]) hb
      rwa [List.filterMap_cons_none hf] at this
    | some b =>
      have hnil : l.filterMap f = [] := by
        rw [List.filterMap_eq_nil_iff]
        intro e he
        cases hfe : f e with
        | none => rfl
        | some b' =>
          obtain ⟨pre, post, hl⟩ := List.append_of_mem he
          have := h (a :: pre) e post b' (by simp [hl]) hfe
          simp [hf] at this
      simp [hf, hnil]

/-- **C08** (at most one request per session). -/
theorem C08_at_most_one (mac : MacFn) (conf : Config) (peer : IpAddr) (tr : List Ev)
    (o : Option (R Unit)) (ht : (session mac conf peer).Trace tr o) : (fwRequests tr).length ≤ 1 := by
  apply filterMap_length_le_one
  intro pre e post m hs he
  obtain ⟨_, _, _, _, _, _, _, _, _, _, _, _, h⟩ := C08_request_content mac conf peer tr o ht pre e post hs m he
  exact h

/-- **C09** (Come-In only after Ack). When Come-In is handed to the network, this session's only firewall request has
been sent and acknowledged, and no Come-In or Go-Away was sent before. -/
theorem C09_comein_after_ack (mac : MacFn) (conf : Config) (peer : IpAddr) (tr : List Ev)
    (o : Option (R Unit)) (ht : (session mac conf peer).Trace tr o)
    (pre : List Ev) (e : Ev) (post : List Ev) (hs : tr = pre ++ e :: post) (m : Message)
    (he : sentMsg e = some m) (hm : m.operation = .ComeIn) :
    (∃ req reply, [⟨.fwSend req, true⟩, ⟨.fwRecv, .msg reply⟩].Sublist pre ∧ reply.operation = .Ack ∧
      fwRequests pre = [req]) ∧
    CompleteAuth mac conf pre ∧ (∃ ch, ch.operation = .Challenge ∧ sent pre = [ch]) := by
  have ob : SessionObl mac conf peer
      (fun h e => (∃ m, sentMsg e = some m ∧ m.operation = .ComeIn) →
        (∃ req reply, [⟨.fwSend req, true⟩, ⟨.fwRecv, .msg reply⟩].Sublist h ∧
        reply.operation = .Ack ∧ fwRequests h = [req]) ∧
        CompleteAuth mac conf h ∧ (∃ ch, ch.operation = .Challenge ∧ sent h = [ch])) (fun _ _ => True) := by
    constructor <;> obl
    case ciSend m key res s n resp pt reply s' b hf hpt hop =>
      refine ⟨fun _ => ⟨⟨FwMessage.newOpen peer pt res.port, reply, ?_, hop, by simp⟩, ?_, ⟨challengeMsg m s n, rfl, by simp⟩⟩, trivial⟩
      · refine List.Sublist.trans ?_ (List.sublist_append_left _ _)
        rw [hist4]
        refine List.Sublist.trans ?_ (List.sublist_append_right _ _)
        exact .cons _ (.cons_cons _ (.cons_cons _ .slnil))
      · exact ⟨m, resp, key, n, by simp, hf.knockOk, by simp, hf.respOk, hf.sameUser, hf.sameResource⟩
  exact ((session_ok ob).sound ht).1 pre e post hs ⟨m, he, hm⟩

/-- Is Come-In or Go-Away handed to the network? -/
def isFinal (e : Ev) : Prop := ∃ m, sentMsg e = some m ∧ (m.operation = .ComeIn ∨ m.operation = .GoAway)

def NoFinal (h : List Ev) : Prop := ∀ x ∈ h, ¬ isFinal x

/-- **C09**/**C10** (nothing follows a verdict). After Come-In or Go-Away the session does nothing any more. -/
theorem C09_nothing_after_verdict (mac : MacFn) (conf : Config) (peer : IpAddr) (tr : List Ev)
    (o : Option (R Unit)) (ht : (session mac conf peer).Trace tr o)
    (pre : List Ev) (e : Ev) (post : List Ev) (hs : tr = pre ++ e :: post) (he : isFinal e) : post = [] := by
  have ob : SessionObl mac conf peer (fun h _ => NoFinal h) (fun _ _ => True) := by
    constructor <;> intros <;> first
      | trivial
      | (simp [NoFinal, isFinal]; done)
      | (refine reject_ok ?_ ?_ ?_ ?_ ?_ <;> intros <;> first | trivial | (simp [NoFinal, isFinal]; done))
  cases post with
  | nil => rfl
  | cons e' post =>
    exfalso
    exact ((session_ok ob).sound ht).1 (pre ++ [e]) e' post (by simp [hs]) e (by simp) he

/-- Is a Come-In successfully handed to the network? -/
def isComeInOk : Ev → Bool
  | ⟨.send m, b⟩ => b && m.operation = .ComeIn
  | _ => false

theorem comeInOk_iff (l : List Ev) :
    (∃ m : Message, m.operation = .ComeIn ∧ l.getLast? = some ⟨.send m, true⟩) ↔ l.getLast?.any isComeInOk = true := by
  constructor
  · rintro ⟨m, h1, h2⟩
    simp [h2, isComeInOk, h1]
  · intro h
    cases hl : l.getLast? with
    | none => simp [hl] at h
    | some e =>
      rw [hl] at h
      obtain ⟨a, x⟩ := e
      cases a <;> simp [isComeInOk] at h
      rename_i m
      exact ⟨m, h.2, by rw [h.1]⟩

/-- **C09** (success). The session reports success exactly if it ended with a successfully transmitted Come-In. -/
theorem C09_success_iff (mac : MacFn) (conf : Config) (peer : IpAddr) (tr : List Ev) (r : R Unit)
    (ht : (session mac conf peer).Trace tr (some r)) :
    r = .ok () ↔ ∃ m : Message, m.operation = .ComeIn ∧ tr.getLast? = some ⟨.send m, true⟩ := by
  rw [comeInOk_iff]
  have ob : SessionObl mac conf peer (fun _ _ => True)
      (fun h r => r = .ok () ↔ h.getLast?.any isComeInOk = true) := by
    constructor <;> intros <;> try first
      | trivial
      | (simp [isComeInOk]; done)
      | (refine reject_ok ?_ ?_ ?_ ?_ ?_ <;> intros <;> first | trivial | (simp [isComeInOk]; done))
  exact ((session_ok ob).sound ht).2 r rfl

/-! ## C10 -/

theorem mayReport_of_allowed {mac : MacFn} {conf : Config} {a : AuthState} {h : List Ev}
    (hb : a ≠ .NotAuth → BasicAuth mac conf h) (hc : a = .ChallengeResponseAuth → CompleteAuth mac conf h)
    (ha : goAwayAllowed conf.controlErrorPolicy a = true) : MayReport mac conf h := by
  unfold MayReport
  cases hp : conf.controlErrorPolicy <;> cases a <;> simp_all [goAwayAllowed]

theorem completeAuth_of_full {mac : MacFn} {conf : Config} {pre ext : List Ev} {k c r : Message} {n : Auth} {key : Key}
    {res : Resource} (h : FullAuth mac conf pre k c r n key res) (he : ∀ e ∈ ext, recvd e = none) :
    CompleteAuth mac conf (pre ++ ext) := by
  have e1 : received ext = [] := by
    rw [received, List.filterMap_eq_nil_iff]; exact fun e h => he e h
  refine ⟨k, r, key, n, ?_, h.knockOk, ?_, h.respOk, h.sameUser, h.sameResource⟩
  · have := h.recvOnly
    simp only [received, List.filterMap_append] at *
    rw [this, e1]; rfl
  · exact List.mem_append_left _ (h.order.subset (by simp))

theorem completeAuth_basic {mac : MacFn} {conf : Config} {h : List Ev} (hc : CompleteAuth mac conf h) :
    BasicAuth mac conf h := by
  obtain ⟨k, r, key, n, h1, h2, _⟩ := hc
  exact ⟨k, key, by rw [h1]; rfl, h2⟩

/-- **C10** (stealth). With policy basic-auth or full-auth, any message at all is sent only to a peer whose first message
was a Knock with a valid MAC of a configured user. -/
theorem C10_stealth (mac : MacFn) (conf : Config) (peer : IpAddr) (tr : List Ev)
    (o : Option (R Unit)) (ht : (session mac conf peer).Trace tr o) (hp : conf.controlErrorPolicy ≠ .Always)
    (pre : List Ev) (e : Ev) (post : List Ev) (hs : tr = pre ++ e :: post) (m : Message) (he : sentMsg e = some m) :
    BasicAuth mac conf pre := by
  have ob : SessionObl mac conf peer
      (fun h e => sentMsg e = some m → BasicAuth mac conf h) (fun _ _ => True) := by
    have h0 : goAwayAllowed conf.controlErrorPolicy .NotAuth = true → False := by
      cases hq : conf.controlErrorPolicy <;> simp_all [goAwayAllowed]
    constructor <;> intros <;> try first | irr | (refine reject_ok ?_ ?_ ?_ ?_ ?_ <;> intros <;> try irr)
    case ciSend hf _ _ => exact ⟨fun _ => ⟨_, _, rfl, hf.knockOk⟩, trivial⟩
    all_goals first
      | exact ⟨_, _, rfl, ‹ValidKnock mac conf _ _›⟩
      | exact ⟨_, _, rfl, (‹FullAuth mac conf _ _ _ _ _ _ _›).knockOk⟩
  exact ((session_ok ob).sound ht).1 pre e post hs he

/-- Is a Go-Away handed to the network? -/
def isGoAway : Ev → Bool
  | ⟨.send m, _⟩ => m.operation = .GoAway
  | _ => false

/-- **C10** (policy, one direction). Go-Away is sent only where the configured policy permits it: with basic-auth after a
valid Knock, with full-auth after a valid Knock and a valid Response. -/
theorem C10_goaway_permitted (mac : MacFn) (conf : Config) (peer : IpAddr) (tr : List Ev)
    (o : Option (R Unit)) (ht : (session mac conf peer).Trace tr o)
    (pre : List Ev) (e : Ev) (post : List Ev) (hs : tr = pre ++ e :: post) (m : Message) (he : sentMsg e = some m)
    (hm : m.operation = .GoAway) : MayReport mac conf pre := by
  have ob : SessionObl mac conf peer
      (fun h e => isGoAway e = true → MayReport mac conf h) (fun _ _ => True) := by
    constructor <;> intros <;> try first
      | (exfalso; rename_i hx; (simp [isGoAway] at hx; done))
      | irr
      | (refine reject_ok ?_ ?_ ?_ ?_ ?_ <;> intros <;> try irr)
    all_goals try (refine mayReport_of_allowed (a := _) ?_ ?_ ‹goAwayAllowed _ _ = true› <;> intro hh <;> try contradiction)
    all_goals try first
      | exact ⟨_, _, rfl, ‹ValidKnock mac conf _ _›⟩
      | exact ⟨_, _, rfl, (‹FullAuth mac conf _ _ _ _ _ _ _›).knockOk⟩
      | (rw [List.append_assoc]; exact completeAuth_of_full ‹FullAuth mac conf _ _ _ _ _ _ _› (by simp))
  refine ((session_ok ob).sound ht).1 pre e post hs ?_
  obtain ⟨a, x⟩ := e
  cases a <;> simp at he
  simp [isGoAway, he, hm]

/-- How a session that reports an error ended. -/
def ErrEnd (mac : MacFn) (conf : Config) (tr : List Ev) (r : R Unit) : Prop :=
  r = .err → EndsWithoutMessage tr ∨ EndsWithFailedSend tr ∨ EndsWithGoAway tr ∨ ¬ MayReport mac conf tr

theorem errEnd_goAway {mac : MacFn} {conf : Config} {h : List Ev} {st : PState} {s : Salt}
    {b : (Act.send (goAwayMsg st s)).Resp} {x : Ev} :
    ErrEnd mac conf (h ++ [x, ⟨.send (goAwayMsg st s), b⟩]) .err :=
  fun _ => .inr (.inr (.inl ⟨goAwayMsg st s, b, rfl, by simp⟩))

theorem not_mayReport {mac : MacFn} {conf : Config} {a : AuthState} {h : List Ev}
    (ha : goAwayAllowed conf.controlErrorPolicy a = false)
    (hb : a = .NotAuth → ¬ BasicAuth mac conf h) (hc : a = .BasicAuth → ¬ CompleteAuth mac conf h) :
    ¬ MayReport mac conf h := by
  unfold MayReport
  cases hp : conf.controlErrorPolicy <;> cases a <;> simp_all [goAwayAllowed]
  exact fun hcc => hb (completeAuth_basic hcc)

/-- **C10** (policy, other direction: every rejection is answered). A session that ends with an error ended because
nothing decodable was received in time, or a regular message could not be transmitted, or with a Go-Away (and nothing after
it, `C09_nothing_after_verdict`), or the policy forbids the answer. With policy `always` the last case does not exist. -/
theorem C10_rejections_answered (mac : MacFn) (conf : Config) (peer : IpAddr) (tr : List Ev)
    (ht : (session mac conf peer).Trace tr (some .err)) :
    EndsWithoutMessage tr ∨ EndsWithFailedSend tr ∨ EndsWithGoAway tr ∨ ¬ MayReport mac conf tr := by
  have ob : SessionObl mac conf peer (fun _ _ => True) (ErrEnd mac conf) := by
    constructor <;> intros <;> try first
      | trivial
      | exact ⟨trivial, fun _ h => by simp at h⟩
      | (refine reject_ok ?_ ?_ ?_ ?_ ?_ <;> intros <;> try first | trivial | exact errEnd_goAway | (intro h; simp at h; done))
    case firstFail => exact fun _ => .inl (.inl rfl)
    case firstDisc => exact fun _ => .inl (.inr rfl)
    case chSendFail => exact fun _ => .inr (.inl ⟨_, (by decide : Operation.Challenge ≠ .GoAway), rfl⟩)
    case recv2Fail hx =>
      refine fun _ => .inl ?_
      rcases hx with hx | hx <;> subst hx
      · exact .inl (by simp)
      · exact .inr (by simp)
    case noProto => exact fun h => by simp at h
    case ciSend m key res s n resp pt reply s' b hf hpt hop =>
      refine ⟨trivial, ?_⟩
      cases b with
      | true => exact fun h => by simp at h
      | false =>
        exact fun _ => .inr (.inl ⟨Message.new .ComeIn m.user m.resource s', (by decide : Operation.ComeIn ≠ .GoAway), by simp⟩)
    case notKnock.refine_5 m hop ha =>
      refine fun _ => .inr (.inr (.inr (not_mayReport ha (fun _ => ?_) (fun h => by simp at h))))
      rintro ⟨k, key, h1, h2⟩
      simp at h1; subst h1
      exact hop h2.op
    case badKnock.refine_5 m hop hbad ha =>
      refine fun _ => .inr (.inr (.inr (not_mayReport ha (fun _ => ?_) (fun h => by simp at h))))
      rintro ⟨k, key, h1, h2⟩
      simp at h1; subst h1
      exact hbad key h2
    case denied.refine_5 m key hv hd ha =>
      refine fun _ => .inr (.inr (.inr (not_mayReport ha (fun h => by simp at h) (fun _ => ?_))))
      rintro ⟨k, r, key, n, h1, _⟩
      simp at h1
    case badResponse.refine_5 m key res s n resp hv hg hb ha =>
      refine fun _ => .inr (.inr (.inr (not_mayReport ha (fun h => by simp at h) (fun _ => ?_))))
      rintro ⟨k, r, key', n', h1, h2, h3, h4, h5, h6⟩
      simp at h1 h3
      obtain ⟨rfl, rfl⟩ := h1
      have hk : key' = key := by
        have := h2.known.symm.trans hv.known
        injection this
      subst hk h3
      rcases hb with hb | hb | hb
      · exact hb h5
      · exact hb h6
      · exact hb h4
    all_goals (exfalso; rename_i ha; revert ha; cases conf.controlErrorPolicy <;> simp [goAwayAllowed])
  exact ((session_ok ob).sound ht).2 .err rfl rfl

/-! ## C11 -/

/-- **C11**, as far as it holds (`_partial`: it fails when the first message is not a Knock, `C11_fails_before_knock`).
Every message sent after the first message was a Knock carries that Knock's user and resource. -/
theorem C11_reply_ids_partial (mac : MacFn) (conf : Config) (peer : IpAddr) (tr : List Ev)
    (o : Option (R Unit)) (ht : (session mac conf peer).Trace tr o)
    (pre : List Ev) (e : Ev) (post : List Ev) (hs : tr = pre ++ e :: post) (m : Message) (he : sentMsg e = some m) :
    ∃ first, (received pre).head? = some first ∧
      (first.operation = .Knock → m.user = first.user ∧ m.resource = first.resource) ∧
      (first.operation ≠ .Knock → m.operation = .GoAway ∧ m.user = ⟨0xFFFFFFFF⟩ ∧ m.resource = ⟨0xFFFFFFFF⟩) := by
  have ob : SessionObl mac conf peer
      (fun h e => sentMsg e = some m → ∃ first, (received h).head? = some first ∧
        (first.operation = .Knock → m.user = first.user ∧ m.resource = first.resource) ∧
        (first.operation ≠ .Knock → m.operation = .GoAway ∧ m.user = ⟨0xFFFFFFFF⟩ ∧ m.resource = ⟨0xFFFFFFFF⟩))
      (fun _ _ => True) := by
    constructor <;> intros <;> try first | irr | (refine reject_ok ?_ ?_ ?_ ?_ ?_ <;> intros <;> try irr)
    case notKnock.refine_2 m' hop _ s b hx =>
      simp only [sentMsg, Option.some.injEq] at hx
      subst hx
      exact ⟨m', rfl, fun h => absurd h hop, fun _ => ⟨rfl, rfl, rfl⟩⟩
    case ciSend hf _ _ =>
      refine ⟨fun hx => ?_, trivial⟩
      simp only [sentMsg, Option.some.injEq] at hx
      subst hx
      exact ⟨_, rfl, fun _ => ⟨rfl, rfl⟩, fun hc => absurd hf.knockOk.op hc⟩
    case badKnock.refine_2 hop _ _ _ _ hx =>
      simp only [sentMsg, Option.some.injEq] at hx
      subst hx
      exact ⟨_, rfl, fun _ => ⟨rfl, rfl⟩, fun hc => absurd hop hc⟩
    all_goals
      rename_i hx
      simp only [sentMsg, Option.some.injEq] at hx
      subst hx
      first
        | exact ⟨_, rfl, fun _ => ⟨rfl, rfl⟩, fun hc => absurd (ValidKnock.op ‹_›) hc⟩
        | exact ⟨_, rfl, fun _ => ⟨rfl, rfl⟩, fun hc => absurd (‹FullAuth mac conf _ _ _ _ _ _ _›).knockOk.op hc⟩
  exact ((session_ok ob).sound ht).1 pre e post hs he

/-- A good random salt. -/
def goodSalt : Arr 8 := ⟨[1, 2, 3, 4, 5, 6, 7, 8], rfl⟩
/-- A good random nonce. -/
def goodNonce : Arr 32 := ⟨(List.range 32).map UInt8.ofNat, rfl⟩

/-- **C11** is false in general: a first message that is not a Knock is answered (with the default error policy)
by a Go-Away that carries neither the user nor the resource of that message. -/
theorem C11_fails_before_knock (mac : MacFn) (conf : Config) (peer : IpAddr)
    (hp : conf.controlErrorPolicy = .Always) (m : Message) (hm : m.operation ≠ .Knock)
    (hu : m.user ≠ ⟨0xFFFFFFFF⟩) :
    ∃ tr reply, (session mac conf peer).Trace tr (some .err) ∧ received tr = [m] ∧ sent tr = [reply] ∧
      reply.user ≠ m.user := by
  have hs : secureRandom 8 (some goodSalt) = .ok goodSalt := by decide +kernel
  refine ⟨[⟨.recv, .msg m⟩, ⟨.rand8, some goodSalt⟩,
    ⟨.send (Message.new .GoAway ⟨0xFFFFFFFF⟩ ⟨0xFFFFFFFF⟩ goodSalt), true⟩], _, ?_, by simp, by simp; rfl, Ne.symm hu⟩
  refine ⟨_, rfl, ?_⟩
  simp only [ne_eq, hm, not_false_eq_true, if_true, reject, sendGoAway, hp, goAwayAllowed]
  refine ⟨_, rfl, ?_⟩
  simp only [hs, R.bind_ok]
  refine ⟨_, rfl, rfl, .inr rfl⟩

/-! ## C12 -/

/-- Every resource has a transport protocol; the configuration loader guarantees it (`C12_loaded_config_has_proto`). -/
def AllHaveProto (conf : Config) : Prop := ∀ id res, conf.resource id = some res → res.tcp = true ∨ res.udp = true

/-- How a session that panicked ended. -/
def PanicEnd (tr : List Ev) (r : R Unit) : Prop :=
  r = .panic → (∃ raw, tr.getLast? = some ⟨.rand8, raw⟩ ∧ BadRandom raw) ∨
    (∃ raw, tr.getLast? = some ⟨.rand32, raw⟩ ∧ BadRandom raw)

/-- **C12**. The session panics only if the operating system's random number generator fails. -/
theorem C12_no_panic (mac : MacFn) (conf : Config) (peer : IpAddr) (hc : AllHaveProto conf) (tr : List Ev)
    (ht : (session mac conf peer).Trace tr (some .panic)) :
    (∃ raw, tr.getLast? = some ⟨.rand8, raw⟩ ∧ BadRandom raw) ∨
    (∃ raw, tr.getLast? = some ⟨.rand32, raw⟩ ∧ BadRandom raw) := by
  have h8 : ∀ raw : Act.rand8.Resp, secureRandom 8 raw = .panic → ∀ h, PanicEnd (h ++ [⟨.rand8, raw⟩]) .panic := by
    intro raw hr h _
    exact .inl ⟨raw, by simp, (secureRandom_panic_iff 8 (by decide) raw).1 hr⟩
  have ob : SessionObl mac conf peer (fun _ _ => True) PanicEnd := by
    constructor <;> intros <;> try first
      | trivial
      | (intro h; simp at h; done)
      | exact ⟨trivial, fun h => h8 _ h _⟩
      | (refine reject_ok ?_ ?_ ?_ ?_ ?_ <;> intros <;> first | trivial | (intro h; simp at h; done) | exact h8 _ ‹_› _)
    case chNonce raw _ _ =>
      exact ⟨trivial, fun hr _ => .inr ⟨raw, by simp, (secureRandom_panic_iff 32 (by decide) raw).1 hr⟩⟩
    case noProto res _ _ _ _ hg _ hpt =>
      exfalso
      have := hc _ _ hg.configured
      unfold Resource.portType at hpt
      split at hpt <;> simp_all
    case ciSend b _ _ _ =>
      refine ⟨trivial, ?_⟩
      cases b <;> intro h <;> simp at h
  exact ((session_ok ob).sound ht).2 .panic rfl rfl

/-! ## Concrete sessions -/

/-- A configuration with one user and two resources. -/
def exampleConf : Config :=
  { Config.new .Server with
    keys := [(⟨0xA423DDA7⟩, Arr.replicate 32 7)]
    resources := [(⟨1⟩, { port := 443, tcp := true, udp := true, users := [⟨5⟩] }),
      (⟨0xBC5D8077⟩, { port := 22, tcp := true, udp := false, users := [] })] }

/-- The Knock of a client knowing the key. -/
def exampleKnock : Message :=
  let m := Message.new .Knock ⟨0xA423DDA7⟩ ⟨0xBC5D8077⟩ goodSalt
  { m with auth := m.authenticate toyMac (Arr.replicate 32 7) ZERO_AUTH }

/-- Its response to the challenge `goodNonce`. -/
def exampleResponse : Message :=
  let m := Message.new .Response ⟨0xA423DDA7⟩ ⟨0xBC5D8077⟩ goodSalt
  { m with auth := m.authenticate toyMac (Arr.replicate 32 7) goodNonce }

/-- A client address. -/
def examplePeer : IpAddr := .v4 ⟨[192, 0, 2, 7], rfl⟩

/-- A complete successful session. -/
def exampleScript : List Ans :=
  [.recv (.msg exampleKnock), .r8 (some goodSalt), .r32 (some goodNonce), .bool true, .recv (.msg exampleResponse),
   .bool true, .bool true, .fw (.msg FwMessage.newAck), .r8 (some goodSalt), .bool true]

/-- The hypotheses of C07, C08, C09 are met by a real session: it succeeds with one request and Come-In. -/
example : (play (session toyMac exampleConf examplePeer) exampleScript).2 = some (.ok ()) ∧
    fwRequests (play (session toyMac exampleConf examplePeer) exampleScript).1 = [FwMessage.newOpen examplePeer .Tcp 22] ∧
    (sent (play (session toyMac exampleConf examplePeer) exampleScript).1).map (·.operation) = [.Challenge, .ComeIn] ∧
    (play (session toyMac exampleConf examplePeer) exampleScript).1.any isFw = true := by
  decide +kernel

/-- Is the event the receipt of a message? -/
def isRecv (e : Ev) : Bool := (recvd e).isSome

/-- **C12** (the premise on the configuration is needed). With a resource without protocol the session does panic
right after a valid Response. -/
theorem C12_needs_proto : ∃ mac conf peer tr, (session mac conf peer).Trace tr (some .panic) ∧
    tr.getLast?.any isRecv = true := by
  let conf := { exampleConf with
    resources := [(⟨0xBC5D8077⟩, { port := 22, tcp := false, udp := false, users := [] })] }
  refine ⟨toyMac, conf, examplePeer, (play (session toyMac conf examplePeer) exampleScript).1, ?_, by decide +kernel⟩
  have h : (play (session toyMac conf examplePeer) exampleScript).2 = some .panic := by decide +kernel
  rw [← h]
  exact play_trace _ _

/-- C10: a wrong tag is answered by Go-Away with policy always, and by silence with policy basic-auth. -/
example : sent (play (session toyMac exampleConf examplePeer)
      [.recv (.msg { exampleKnock with auth := goodNonce }), .r8 (some goodSalt), .bool true]).1
      = [Message.new .GoAway ⟨0xA423DDA7⟩ ⟨0xBC5D8077⟩ goodSalt] ∧
    (play (session toyMac { exampleConf with controlErrorPolicy := .BasicAuth } examplePeer)
      [.recv (.msg { exampleKnock with auth := goodNonce })]).2 = some .err ∧
    sent (play (session toyMac { exampleConf with controlErrorPolicy := .BasicAuth } examplePeer)
      [.recv (.msg { exampleKnock with auth := goodNonce })]).1 = [] := by
  decide +kernel

/-- C10 with policy full-auth: a replayed Response (for another challenge) is not answered; a Nack of the firewall is. -/
example : (sent (play (session toyMac { exampleConf with controlErrorPolicy := .FullAuth } examplePeer)
      [.recv (.msg exampleKnock), .r8 (some goodSalt), .r32 (some ⟨5 :: goodNonce.val.tail, rfl⟩), .bool true,
        .recv (.msg { exampleResponse with auth := goodNonce })]).1).tail = [] ∧
    ((sent (play (session toyMac { exampleConf with controlErrorPolicy := .FullAuth } examplePeer)
      [.recv (.msg exampleKnock), .r8 (some goodSalt), .r32 (some goodNonce), .bool true, .recv (.msg exampleResponse),
        .bool true, .bool true, .fw (.msg FwMessage.newNack), .r8 (some goodSalt), .bool true]).1).map (·.operation))
      = [.Challenge, .GoAway] := by
  decide +kernel

example : AllHaveProto exampleConf := by
  intro id res h
  simp only [Config.resource, exampleConf, assocGet] at h
  split at h
  · injection h with h; subst h; simp
  · split at h
    · injection h with h; subst h; simp
    · simp at h

end Letmein.Props
