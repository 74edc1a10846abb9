import Verif.Props.Network

/-!
# Property C138: replaying a Knock

SECURITY.md lists as a known weakness that the Knock is not protected against replay, and says that the attacker "will still not be able to successfully
solve the Challenge". Both halves are proved here, for a server that keeps its configuration.
-/

set_option linter.unusedSimpArgs false

namespace Letmein.Props

open Letmein Prog Spec

attribute [local simp] hist1 hist2 hist3 hist4 received sent recvd sentMsg challengeMsg goAwayMsg Message.new List.filterMap_cons

/-- Close an obligation that holds because the event at hand is irrelevant. -/
local macro "irr" : tactic =>
  `(tactic| first | trivial | (exfalso; rename_i hx; (simp at hx; done)) | (refine ⟨?_, ?_⟩ <;> intros <;>
    first | trivial | (exfalso; rename_i hx; (simp at hx; done))))

/-- The Challenge that answers `knock`, for the random bytes drawn. -/
structure AnswersKnock (knock : Message) (salt : Salt) (nonce : Auth) (ch : Message) : Prop where
  op : ch.operation = .Challenge
  user : ch.user = knock.user
  resource : ch.resource = knock.resource
  salt : ch.salt = salt
  nonce : ch.auth = nonce

/-- A text whose tag the attacker may have recorded before `nonce` was drawn: that of any message, but, if of a Response, not for `nonce`. -/
def OldText (nonce : Auth) (t : List UInt8) : Prop :=
  ∃ (op : Operation) (u : UserId) (r : ResourceId) (s : Salt) (c : Auth),
    t = authText (opNumber op) u.raw.toNat r.raw.toNat s.val c.val ∧ (op = .Response → c ≠ nonce)

/-- A session sends a Challenge only after a valid Knock for a granted resource. -/
theorem challenge_after_knock (mac : MacFn) (conf : Config) (peer : IpAddr) (tr : List Ev) (o : Option (R Unit))
    (ht : (session mac conf peer).Trace tr o) (pre : List Ev) (c : Message) (b : Bool) (post : List Ev)
    (hs : tr = pre ++ ⟨.send c, b⟩ :: post) (hc : c.operation = .Challenge) :
    ∃ k key res, received pre = [k] ∧ ValidKnock mac conf k key ∧ Granted conf k.user k.resource res := by
  have ob : SessionObl mac conf peer
      (fun h e => ∀ c, sentMsg e = some c → c.operation = .Challenge →
        ∃ k key res, received h = [k] ∧ ValidKnock mac conf k key ∧ Granted conf k.user k.resource res) (fun _ _ => True) := by
    constructor
    case chSend => exact fun m key res s n b hv hg c _ _ => ⟨m, key, res, by simp, hv, hg⟩
    case ciSend =>
      intro m key res s n resp pt reply s' b _ _ _
      refine ⟨fun c hc ho => ?_, trivial⟩
      simp at hc
      rw [← hc] at ho
      cases ho
    all_goals intros
    all_goals try first
      | trivial
      | (intro c hc; simp at hc; done)
      | (refine ⟨fun c hc => ?_, fun _ => trivial⟩; simp at hc; done)
      | (refine reject_ok ?_ ?_ ?_ ?_ ?_ <;> intros <;> first
          | trivial
          | (exfalso; rename_i h1 h2; simp at h1; rw [← h1] at h2; cases h2; done)
          | (exfalso; rename_i h1 h2; simp at h1; done))
  exact ((session_ok ob).sound ht).1 pre _ post hs c rfl hc

/-- After a valid Knock for a granted resource the session goes on with the challenge. -/
theorem session_after_knock (mac : MacFn) (conf : Config) (peer : IpAddr) (k : Message) (key : Key) (res : Resource)
    (hv : ValidKnock mac conf k key) (hg : Granted conf k.user k.resource res) (tr : List Ev) (o : Option (R Unit)) :
    (session mac conf peer).Trace (⟨.recv, .msg k⟩ :: tr) o ↔
      (sessionChallenge mac conf peer k.user k.resource key res ⟨some k.user, some k.resource, .BasicAuth⟩).Trace tr o := by
  have h1 : k.checkAuthOkNoChallenge mac key = .ok true := (C04_check_knock_iff mac k key).2 ⟨hv.op, hv.tag⟩
  have h2 : res.containsUser k.user = true := (containsUser_iff _ _).2 hg.allowed
  have h3 : (session mac conf peer).Trace (⟨.recv, .msg k⟩ :: tr) o ↔
      ((if k.operation ≠ .Knock then reject conf ⟨none, none, .NotAuth⟩ else .ret (.ok k) : Prog Message) >>= fun knock =>
        match conf.key knock.user with
        | none => reject conf ⟨some knock.user, some knock.resource, .NotAuth⟩
        | some key => Prog.ret (knock.checkAuthOkNoChallenge mac key) >>= fun ok =>
          if !ok then reject conf ⟨some knock.user, some knock.resource, .NotAuth⟩
          else
            match conf.resource knock.resource with
            | none => reject conf ⟨some knock.user, some knock.resource, .BasicAuth⟩
            | some resource =>
              if !resource.containsUser knock.user then reject conf ⟨some knock.user, some knock.resource, .BasicAuth⟩
              else if resource.port = conf.port.port then reject conf ⟨some knock.user, some knock.resource, .BasicAuth⟩
              else sessionChallenge mac conf peer knock.user knock.resource key resource
                ⟨some knock.user, some knock.resource, .BasicAuth⟩).Trace tr o := by
    constructor
    · rintro ⟨x, hx, h⟩
      cases hx
      exact h
    · exact fun h => ⟨_, rfl, h⟩
  rw [h3]
  show (Prog.bind _ _).Trace tr o ↔ _
  simp only [ne_eq, hv.op, not_true, if_false, Prog.bind, hv.known]
  show (Prog.bind (Prog.ret (k.checkAuthOkNoChallenge mac key)) _).Trace tr o ↔ _
  simp only [h1, Prog.bind, Bool.not_true, Bool.false_eq_true, if_false, hg.configured, h2, hg.notControl]

/-- What the challenge stage does with usable random bytes. -/
theorem challenge_stage (mac : MacFn) (conf : Config) (peer : IpAddr) (u : UserId) (r : ResourceId) (key : Key) (res : Resource) (st : PState)
    (s : Salt) (n : Auth) (hs : ¬ BadRandom (some s)) (hn : ¬ BadRandom (some n)) :
    ∃ rest : Bool → Prog Unit, ∀ tr o,
      (sessionChallenge mac conf peer u r key res st).Trace (⟨.rand8, some s⟩ :: ⟨.rand32, some n⟩ :: tr) o ↔
        (Prog.act (.send { Message.new .Challenge u r s with auth := n }) rest).Trace tr o := by
  have e1 : secureRandom 8 (some s) = .ok s :=
    (secureRandom_some 8 (by decide) s).2 (fun ⟨x, hx⟩ => hs (.inr ⟨s, x, rfl, hx⟩))
  have e2 : secureRandom 32 (some n) = .ok n :=
    (secureRandom_some 32 (by decide) n).2 (fun ⟨x, hx⟩ => hn (.inr ⟨n, x, rfl, hx⟩))
  refine ⟨fun sentOk => Prog.bind (.ret (if sentOk then .ok () else .err)) fun _ => recvMsg conf st .Response >>= fun response =>
    Prog.ret (response.checkAuthOk mac key { Message.new .Challenge u r s with auth := n }) >>= fun ok =>
    if !ok then reject conf st
    else sessionOpen conf peer u r res { st with authState := .ChallengeResponseAuth }, fun tr o => ⟨?_, ?_⟩⟩
  rotate_left
  · intro h
    refine ⟨some s, rfl, ?_⟩
    simp only [e1]
    refine ⟨some n, rfl, ?_⟩
    simp only [e2]
    exact h
  · rintro ⟨x, hx, h⟩
    cases hx
    simp only [e1] at h
    obtain ⟨y, hy, h⟩ := h
    cases hy
    simp only [e2] at h
    exact h

/-- **C138** (the weakness). A message that was once answered with a Challenge is answered with a Challenge whenever it is presented again: from any address, in
any later session, as often as the attacker likes. Whatever usable random bytes are drawn, the session can go through exactly these steps, and every session that
has drawn these bytes after this message does nothing else next. -/
theorem C138_replay_is_answered (mac : MacFn) (conf : Config) (peer : IpAddr) (tr : List Ev) (o : Option (R Unit))
    (ht : (session mac conf peer).Trace tr o) (c0 : Message) (hc0 : c0 ∈ sent tr) (hop : c0.operation = .Challenge) :
    ∃ k, (received tr).head? = some k ∧ ∀ (attacker : IpAddr) (s : Salt) (n : Auth), ¬ BadRandom (some s) → ¬ BadRandom (some n) →
      ∃ ch, AnswersKnock k s n ch ∧
        (∀ ok, (session mac conf attacker).Trace [⟨.recv, .msg k⟩, ⟨.rand8, some s⟩, ⟨.rand32, some n⟩, ⟨.send ch, ok⟩] none) ∧
        ∀ tr' o', (session mac conf attacker).Trace (⟨.recv, .msg k⟩ :: ⟨.rand8, some s⟩ :: ⟨.rand32, some n⟩ :: tr') o' →
          (tr' = [] ∧ o' = none) ∨ ∃ ok rest, tr' = ⟨.send ch, ok⟩ :: rest := by
  obtain ⟨e, he, hm⟩ := List.mem_filterMap.1 hc0
  obtain ⟨pre, post, hs⟩ := List.append_of_mem he
  obtain ⟨b, rfl⟩ : ∃ b, e = ⟨.send c0, b⟩ := by
    unfold sentMsg at hm
    split at hm
    · rename_i b; injection hm with hm; exact ⟨b, by rw [hm]⟩
    · cases hm
  obtain ⟨k, key, res, h1, h2, h3⟩ := challenge_after_knock mac conf peer tr o ht pre c0 b post hs hop
  refine ⟨k, ?_, fun attacker s n hbs hbn => ?_⟩
  · have : received tr = k :: received post := by
      rw [hs]
      simp only [received, List.filterMap_append] at h1 ⊢
      rw [h1]; simp
    rw [this]; rfl
  · obtain ⟨rest, hr⟩ := challenge_stage mac conf attacker k.user k.resource key res ⟨some k.user, some k.resource, .BasicAuth⟩ s n hbs hbn
    refine ⟨{ Message.new .Challenge k.user k.resource s with auth := n }, ⟨rfl, rfl, rfl, rfl, rfl⟩, fun ok => ?_, fun tr' o' h => ?_⟩
    · rw [session_after_knock mac conf attacker k key res h2 h3, hr]
      refine ⟨ok, rfl, ?_⟩
      cases rest ok with
      | ret r => exact ⟨rfl, .inl rfl⟩
      | act a f => rfl
    · rw [session_after_knock mac conf attacker k key res h2 h3, hr] at h
      cases tr' with
      | nil => exact .inl ⟨rfl, h⟩
      | cons e tr' =>
        obtain ⟨ok, rfl, _⟩ := h
        exact .inr ⟨ok, tr', rfl⟩

/-- **C138** (its limit). `recorded` are the texts whose tags the attacker has recorded before the session's challenge was drawn, from Knocks, Challenges and
Responses of any user, under the user's key. A session in which everything received bears one of these tags — with anything else in the message changed — never contacts letmeinfwd, unless
one of the recorded texts collides with the text that the session checks. -/
theorem C138_recorded_opens_nothing (mac : MacFn) (conf : Config) (peer : IpAddr) (tr : List Ev) (o : Option (R Unit))
    (ht : (session mac conf peer).Trace tr o) (recorded : List (List UInt8))
    (hold : ∀ n, ⟨.rand32, some n⟩ ∈ tr → ∀ t ∈ recorded, OldText n t)
    (hrec : ∀ resp ∈ received tr, ∀ key, conf.key resp.user = some key → ∃ t ∈ recorded, resp.auth = mac key t) :
    (∀ e ∈ tr, isFw e = false) ∨
      ∃ resp ∈ received tr, ∃ key n, conf.key resp.user = some key ∧ ⟨.rand32, some n⟩ ∈ tr ∧ ∃ t ∈ recorded,
        t ≠ authText 2 resp.user.raw.toNat resp.resource.raw.toNat resp.salt.val n.val ∧
        mac key t = mac key (authText 2 resp.user.raw.toNat resp.resource.raw.toNat resp.salt.val n.val) := by
  by_cases hall : ∀ e ∈ tr, isFw e = false
  · exact .inl hall
  · right
    obtain ⟨e, he⟩ := Classical.not_forall.1 hall
    obtain ⟨hmem, hf⟩ := Classical.not_imp.1 he
    obtain ⟨pre, post, hs⟩ := List.append_of_mem hmem
    obtain ⟨knock, ch, resp, n, key, res, hfull⟩ :=
      C07_no_request_without_full_auth mac conf peer tr o ht pre e post hs (by simpa using hf)
    have hsub : ∀ x, x ∈ pre → x ∈ tr := fun x hx => by rw [hs]; exact List.mem_append_left _ hx
    have hr : resp ∈ received tr := by
      have : resp ∈ received pre := by rw [hfull.recvOnly]; simp
      obtain ⟨x, hx, hx'⟩ := List.mem_filterMap.1 this
      exact List.mem_filterMap.2 ⟨x, hsub x hx, hx'⟩
    have hn : ⟨.rand32, some n⟩ ∈ tr := hsub _ (hfull.order.subset (by simp))
    have hk : conf.key resp.user = some key := by rw [hfull.sameUser]; exact hfull.knockOk.known
    obtain ⟨t, hmt, htag⟩ := hrec resp hr key hk
    obtain ⟨op, u, r, s, c, ht', hne⟩ := hold n hn t hmt
    refine ⟨resp, hr, key, n, hk, hn, t, hmt, ?_, htag.symm.trans hfull.respOk.tag⟩
    intro heq
    rw [ht'] at heq
    obtain ⟨h1, _, _, _, h2⟩ := authText_inj (op := op) (op' := .Response) heq
    exact hne h1 h2

/-- **C138** (what the attacker learns). Unless the error policy is full-auth, a session begun with a replayed Knock also tells that it refuses: it ends with a Go-Away
whenever it ends with an error although something was received and the Challenge could be sent. -/
theorem C138_policy_basic_auth_is_passed (mac : MacFn) (conf : Config) (peer : IpAddr) (tr : List Ev)
    (ht : (session mac conf peer).Trace tr (some .err)) (k : Message) (key : Key) (hk : (received tr).head? = some k)
    (hv : ValidKnock mac conf k key) (hp : conf.controlErrorPolicy ≠ .FullAuth) :
    EndsWithoutMessage tr ∨ EndsWithFailedSend tr ∨ EndsWithGoAway tr := by
  rcases C10_rejections_answered mac conf peer tr ht with h | h | h | h
  · exact .inl h
  · exact .inr (.inl h)
  · exact .inr (.inr h)
  · exfalso
    apply h
    unfold MayReport
    split
    · trivial
    · exact ⟨k, key, hk, hv⟩
    · contradiction

/-! ### Examples -/

/-- The attacker's address. -/
def replayPeer : IpAddr := .v4 ⟨[203, 0, 113, 9], rfl⟩

/-- Another challenge. -/
def otherNonce : Arr 32 := ⟨9 :: goodNonce.val.tail, rfl⟩

/-- The attacker replays Knock and Response of `exampleScript`; the server draws other challenge bytes. -/
def replayScript : List Ans :=
  [.recv (.msg exampleKnock), .r8 (some goodSalt), .r32 (some otherNonce), .bool true, .recv (.msg exampleResponse), .r8 (some goodSalt), .bool true]

/-- The recorded session was answered with a Challenge; so is the replay, which ends with a Go-Away and without any contact to letmeinfwd. -/
example : (sent (play (session toyMac exampleConf examplePeer) exampleScript).1).any (fun m => m.operation = .Challenge) = true ∧
    (play (session toyMac exampleConf replayPeer) replayScript).2 = some .err ∧
    (sent (play (session toyMac exampleConf replayPeer) replayScript).1).map (fun m => (m.operation, m.auth == otherNonce)) =
      [(.Challenge, true), (.GoAway, false)] ∧
    (play (session toyMac exampleConf replayPeer) replayScript).1.any isFw = false := by
  decide +kernel

/-- The texts whose tags were recorded in `exampleScript`. -/
def recordedTexts : List (List UInt8) := [authText 0 0xA423DDA7 0xBC5D8077 goodSalt.val ZERO_AUTH.val, authText 2 0xA423DDA7 0xBC5D8077 goodSalt.val goodNonce.val]

/-- The hypotheses of `C138_recorded_opens_nothing` are met by this replay, and there is no collision. -/
example : (∀ n, ⟨.rand32, some n⟩ ∈ (play (session toyMac exampleConf replayPeer) replayScript).1 → ∀ t ∈ recordedTexts, OldText n t) ∧
    (∀ resp ∈ received (play (session toyMac exampleConf replayPeer) replayScript).1, ∀ key, exampleConf.key resp.user = some key →
      ∃ t ∈ recordedTexts, resp.auth = toyMac key t) ∧
    ∀ t ∈ recordedTexts, toyMac (Arr.replicate 32 7) t ≠ toyMac (Arr.replicate 32 7) (authText 2 0xA423DDA7 0xBC5D8077 goodSalt.val otherNonce.val) := by
  have h1 : received (play (session toyMac exampleConf replayPeer) replayScript).1 = [exampleKnock, exampleResponse] := by decide +kernel
  have h2 : (play (session toyMac exampleConf replayPeer) replayScript).1.filterMap
      (fun e => match e with | ⟨.rand32, x⟩ => some x | _ => none) = [some otherNonce] := by decide +kernel
  refine ⟨?_, ?_, by decide +kernel⟩
  · intro n hn t ht
    have hn' : some n ∈ (play (session toyMac exampleConf replayPeer) replayScript).1.filterMap
        (fun e => match e with | ⟨.rand32, x⟩ => some x | _ => none) := List.mem_filterMap.2 ⟨_, hn, rfl⟩
    rw [h2] at hn'
    have hn2 : n = otherNonce := by simpa using hn'
    subst hn2
    simp only [recordedTexts, List.mem_cons, List.not_mem_nil, or_false] at ht
    rcases ht with rfl | rfl
    · exact ⟨.Knock, ⟨0xA423DDA7⟩, ⟨0xBC5D8077⟩, goodSalt, ZERO_AUTH, rfl, fun h => by cases h⟩
    · exact ⟨.Response, ⟨0xA423DDA7⟩, ⟨0xBC5D8077⟩, goodSalt, goodNonce, rfl, fun _ => by decide +kernel⟩
  · intro resp hr key hk
    rw [h1] at hr
    simp only [List.mem_cons, List.not_mem_nil, or_false] at hr
    have hkey : key = Arr.replicate 32 7 := by
      rcases hr with rfl | rfl
      · have : exampleConf.key exampleKnock.user = some (Arr.replicate 32 7) := by decide +kernel
        rw [this] at hk; exact (Option.some.inj hk).symm
      · have : exampleConf.key exampleResponse.user = some (Arr.replicate 32 7) := by decide +kernel
        rw [this] at hk; exact (Option.some.inj hk).symm
    subst hkey
    rcases hr with rfl | rfl
    · exact ⟨_, List.mem_cons_self, by decide +kernel⟩
    · exact ⟨_, List.mem_cons_of_mem _ List.mem_cons_self, by decide +kernel⟩

end Letmein.Props
