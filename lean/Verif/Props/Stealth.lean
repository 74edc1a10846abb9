import Verif.Props.Replay

/-!
# Property C139: is the error policy basic-auth enough for stealth?

doc/CONFIGURATION.md says: "For the purpose of enabling a stealth operation with `control-error-policy` the `basic-auth` is enough. During the challenge-response
handshake the presence of the server has been revealed anyway." This compares what reveals the server with basic-auth to what reveals it with full-auth.
-/

set_option linter.unusedSimpArgs false

namespace Letmein.Props

open Letmein Prog Spec

attribute [local simp] hist1 hist2 hist3 hist4 received sent recvd sentMsg challengeMsg goAwayMsg Message.new List.filterMap_cons

/-- The configuration with another error policy. -/
def withPolicy (conf : Config) (p : ErrorPolicy) : Config := { conf with controlErrorPolicy := p }

/-- In the circumstances `pre` the server reveals itself by sending `c`, having sent nothing before. -/
def Reveals (mac : MacFn) (conf : Config) (peer : IpAddr) (pre : List Ev) (c : Message) : Prop :=
  sent pre = [] ∧ (session mac conf peer).Trace (pre ++ [⟨.send c, true⟩]) none

/-- The claim: what reveals the server with basic-auth reveals it with full-auth, too. -/
def C139_statement : Prop :=
  ∀ (mac : MacFn) (conf : Config) (peer : IpAddr) (pre : List Ev) (c : Message),
    Reveals mac (withPolicy conf .BasicAuth) peer pre c → ∃ c', Reveals mac (withPolicy conf .FullAuth) peer pre c'

/-- A program may be stopped at the end of every trace. -/
theorem trace_stop {α : Type} {p : Prog α} {tr : List Ev} {o : Option (R α)} (h : p.Trace tr o) : p.Trace tr none := by
  induction p generalizing tr with
  | ret r => exact ⟨h.1, .inl rfl⟩
  | act a k ih =>
    cases tr with
    | nil => rfl
    | cons e tr =>
      obtain ⟨x, hx, h⟩ := h
      exact ⟨x, hx, ih x h⟩

/-- With basic-auth nothing is sent before a valid Knock. -/
theorem basic_auth_silent (mac : MacFn) (conf : Config) (hp : conf.controlErrorPolicy ≠ .Always) (peer : IpAddr) (tr : List Ev) (o : Option (R Unit))
    (ht : (session mac conf peer).Trace tr o) (pre : List Ev) (c : Message) (b : Bool) (post : List Ev)
    (hs : tr = pre ++ ⟨.send c, b⟩ :: post) :
    ∃ k key tl, pre = ⟨.recv, .msg k⟩ :: tl ∧ ValidKnock mac conf k key := by
  have hna : goAwayAllowed conf.controlErrorPolicy .NotAuth = false := by
    cases h : conf.controlErrorPolicy
    · exact absurd h hp
    · rfl
    · rfl
  have ob : SessionObl mac conf peer
      (fun h e => (sentMsg e).isSome = true → ∃ k key tl, h = ⟨.recv, .msg k⟩ :: tl ∧ ValidKnock mac conf k key) (fun _ _ => True) := by
    have key1 : ∀ (m : Message) (key : Key) (h : List Ev), ValidKnock mac conf m key →
        ∃ k key tl, (⟨.recv, .msg m⟩ :: h : List Ev) = ⟨.recv, .msg k⟩ :: tl ∧ ValidKnock mac conf k key :=
      fun m key h hv => ⟨m, key, h, rfl, hv⟩
    constructor
    case notKnock => intros; refine reject_ok ?_ ?_ ?_ ?_ ?_ <;> intros <;> first | trivial | (rename_i h1 _ _ _; rw [hna] at h1; cases h1) | (rename_i h1 _ _; rw [hna] at h1; cases h1) | (rename_i h1 _; rw [hna] at h1; cases h1)
    case badKnock => intros; refine reject_ok ?_ ?_ ?_ ?_ ?_ <;> intros <;> first | trivial | (rename_i h1 _ _ _; rw [hna] at h1; cases h1) | (rename_i h1 _ _; rw [hna] at h1; cases h1) | (rename_i h1 _; rw [hna] at h1; cases h1)
    all_goals intros
    all_goals try first
      | trivial
      | (intro h; simp at h; done)
      | (refine ⟨fun h => ?_, fun _ => trivial⟩; simp at h; done)
    case denied hv _ => refine reject_ok ?_ ?_ ?_ ?_ ?_ <;> intros <;> first | trivial | exact key1 _ _ _ hv
    case chSend hv _ _ => exact key1 _ _ _ hv
    case badResponse hv _ _ => refine reject_ok ?_ ?_ ?_ ?_ ?_ <;> intros <;> first | trivial | exact key1 _ _ _ hv
    case fwConnectFail hf => refine reject_ok ?_ ?_ ?_ ?_ ?_ <;> intros <;> first | trivial | exact key1 _ _ _ hf.knockOk
    case fwSendFail hf _ => refine reject_ok ?_ ?_ ?_ ?_ ?_ <;> intros <;> first | trivial | exact key1 _ _ _ hf.knockOk
    case fwRecvFail hf _ _ => refine reject_ok ?_ ?_ ?_ ?_ ?_ <;> intros <;> first | trivial | exact key1 _ _ _ hf.knockOk
    case ciSend hf _ _ => exact ⟨fun _ => key1 _ _ _ hf.knockOk, trivial⟩
  exact ((session_ok ob).sound ht).1 pre _ post hs rfl

/-- With full-auth nothing is sent before a valid Knock for a granted resource. -/
theorem full_auth_silent (mac : MacFn) (conf : Config) (hp : conf.controlErrorPolicy = .FullAuth) (peer : IpAddr) (tr : List Ev) (o : Option (R Unit))
    (ht : (session mac conf peer).Trace tr o) (pre : List Ev) (c : Message) (b : Bool) (post : List Ev)
    (hs : tr = pre ++ ⟨.send c, b⟩ :: post) :
    ∃ k key res tl, pre = ⟨.recv, .msg k⟩ :: tl ∧ ValidKnock mac conf k key ∧ Granted conf k.user k.resource res := by
  have hna : ∀ a, a ≠ .ChallengeResponseAuth → goAwayAllowed conf.controlErrorPolicy a = false := by
    intro a ha
    rw [hp]
    cases a
    · rfl
    · rfl
    · exact absurd rfl ha
  have ob : SessionObl mac conf peer
      (fun h e => (sentMsg e).isSome = true → ∃ k key res tl, h = ⟨.recv, .msg k⟩ :: tl ∧ ValidKnock mac conf k key ∧ Granted conf k.user k.resource res) (fun _ _ => True) := by
    have key1 : ∀ (m : Message) (key : Key) (res : Resource) (h : List Ev), ValidKnock mac conf m key → Granted conf m.user m.resource res →
        ∃ k key res tl, (⟨.recv, .msg m⟩ :: h : List Ev) = ⟨.recv, .msg k⟩ :: tl ∧ ValidKnock mac conf k key ∧ Granted conf k.user k.resource res :=
      fun m key res h hv hg => ⟨m, key, res, h, rfl, hv, hg⟩
    constructor
    case notKnock => intros; refine reject_ok ?_ ?_ ?_ ?_ ?_ <;> intros <;> first | trivial | (rename_i h1 _ _ _; rw [hna _ (by simp)] at h1; cases h1) | (rename_i h1 _ _; rw [hna _ (by simp)] at h1; cases h1) | (rename_i h1 _; rw [hna _ (by simp)] at h1; cases h1)
    case badKnock => intros; refine reject_ok ?_ ?_ ?_ ?_ ?_ <;> intros <;> first | trivial | (rename_i h1 _ _ _; rw [hna _ (by simp)] at h1; cases h1) | (rename_i h1 _ _; rw [hna _ (by simp)] at h1; cases h1) | (rename_i h1 _; rw [hna _ (by simp)] at h1; cases h1)
    all_goals intros
    all_goals try first
      | trivial
      | (intro h; simp at h; done)
      | (refine ⟨fun h => ?_, fun _ => trivial⟩; simp at h; done)
    case denied => refine reject_ok ?_ ?_ ?_ ?_ ?_ <;> intros <;> first | trivial | (rename_i h1 _ _ _; rw [hna _ (by simp)] at h1; cases h1) | (rename_i h1 _ _; rw [hna _ (by simp)] at h1; cases h1) | (rename_i h1 _; rw [hna _ (by simp)] at h1; cases h1)
    case chSend hv hg _ => exact key1 _ _ _ _ hv hg
    case badResponse hv hg _ => refine reject_ok ?_ ?_ ?_ ?_ ?_ <;> intros <;> first | trivial | exact key1 _ _ _ _ hv hg
    case fwConnectFail hf => refine reject_ok ?_ ?_ ?_ ?_ ?_ <;> intros <;> first | trivial | exact key1 _ _ _ _ hf.knockOk hf.granted
    case fwSendFail hf _ => refine reject_ok ?_ ?_ ?_ ?_ ?_ <;> intros <;> first | trivial | exact key1 _ _ _ _ hf.knockOk hf.granted
    case fwRecvFail hf _ _ => refine reject_ok ?_ ?_ ?_ ?_ ?_ <;> intros <;> first | trivial | exact key1 _ _ _ _ hf.knockOk hf.granted
    case ciSend hf _ _ => exact ⟨fun _ => key1 _ _ _ _ hf.knockOk hf.granted, trivial⟩
  exact ((session_ok ob).sound ht).1 pre _ post hs rfl

/-- The first message of the challenge stage, and the random bytes before it. -/
theorem challenge_first (mac : MacFn) (conf : Config) (peer : IpAddr) (u : UserId) (r : ResourceId) (key : Key) (res : Resource) (st : PState)
    (pre : List Ev) (c : Message) (b : Bool) (hsent : sent pre = [])
    (ht : (sessionChallenge mac conf peer u r key res st).Trace (pre ++ [⟨.send c, b⟩]) none) :
    ∃ s n, ¬ BadRandom (some s) ∧ ¬ BadRandom (some n) ∧ pre = [⟨.rand8, some s⟩, ⟨.rand32, some n⟩] ∧
      c = { Message.new .Challenge u r s with auth := n } := by
  cases pre with
  | nil =>
    obtain ⟨x, hx, _⟩ := ht
    cases hx
  | cons e1 pre =>
    obtain ⟨raw, rfl, ht⟩ := ht
    cases hr : secureRandom 8 raw with
    | err => exact absurd hr (secureRandom_ne_err 8 raw)
    | panic => simp only [hr] at ht; exact absurd ht.1 (by simp)
    | ok s =>
      have hs := secureRandom_ok 8 raw s hr
      subst hs
      have hbs : ¬ BadRandom (some s) := by rw [← secureRandom_panic_iff 8 (by decide), hr]; simp
      simp only [hr] at ht
      cases pre with
      | nil =>
        obtain ⟨x, hx, _⟩ := ht
        cases hx
      | cons e2 pre =>
        obtain ⟨raw2, rfl, ht⟩ := ht
        cases hr2 : secureRandom 32 raw2 with
        | err => exact absurd hr2 (secureRandom_ne_err 32 raw2)
        | panic => simp only [hr2] at ht; exact absurd ht.1 (by simp)
        | ok n =>
          have hn := secureRandom_ok 32 raw2 n hr2
          subst hn
          have hbn : ¬ BadRandom (some n) := by rw [← secureRandom_panic_iff 32 (by decide), hr2]; simp
          simp only [hr2] at ht
          cases pre with
          | nil =>
            obtain ⟨x, hx, _⟩ := ht
            cases hx
            exact ⟨s, n, hbs, hbn, rfl, rfl⟩
          | cons e3 pre =>
            obtain ⟨x, hx, _⟩ := ht
            rw [hx] at hsent
            simp at hsent

/-- **C139** (what holds). With basic-auth the server reveals itself only after a valid Knock; and if the resource that the Knock asks for is granted to its user, then
what reveals the server is the Challenge, which is sent with full-auth in the same circumstances, too, as the same message. Missing from the full claim: Knocks for resources that are not
granted to the user; see `C139_negation`. -/
theorem C139_enough_partial (mac : MacFn) (conf : Config) (peer : IpAddr) (pre : List Ev) (c : Message)
    (h : Reveals mac (withPolicy conf .BasicAuth) peer pre c) :
    ∃ k key tl, pre = ⟨.recv, .msg k⟩ :: tl ∧ ValidKnock mac conf k key ∧
      ((∃ res, Granted conf k.user k.resource res) → c.operation = .Challenge ∧ Reveals mac (withPolicy conf .FullAuth) peer pre c) := by
  obtain ⟨hsent, ht⟩ := h
  obtain ⟨k, key, tl, rfl, hv⟩ := basic_auth_silent mac (withPolicy conf .BasicAuth) (by simp [withPolicy]) peer _ _ ht pre c true [] rfl
  refine ⟨k, key, tl, rfl, ⟨hv.op, hv.known, hv.tag⟩, ?_⟩
  rintro ⟨res, hg⟩
  have hg1 : Granted (withPolicy conf .BasicAuth) k.user k.resource res := ⟨hg.configured, hg.allowed, hg.notControl⟩
  have hg2 : Granted (withPolicy conf .FullAuth) k.user k.resource res := ⟨hg.configured, hg.allowed, hg.notControl⟩
  have hv2 : ValidKnock mac (withPolicy conf .FullAuth) k key := ⟨hv.op, hv.known, hv.tag⟩
  rw [List.cons_append, session_after_knock mac _ peer k key res hv hg1] at ht
  obtain ⟨s, n, hs, hn, rfl, rfl⟩ := challenge_first mac _ peer k.user k.resource key res _ tl c true (by simpa using hsent) ht
  refine ⟨rfl, by simp, ?_⟩
  rw [List.cons_append, session_after_knock mac _ peer k key res hv2 hg2]
  obtain ⟨rest, hr⟩ := challenge_stage mac (withPolicy conf .FullAuth) peer k.user k.resource key res ⟨some k.user, some k.resource, .BasicAuth⟩ s n hs hn
  refine (hr _ _).2 ⟨true, rfl, ?_⟩
  cases rest true with
  | ret r => exact ⟨rfl, .inl rfl⟩
  | act a f => rfl

/-- **C139** (the other direction). What reveals the server with full-auth reveals it with basic-auth. -/
theorem C139_full_auth_not_weaker (mac : MacFn) (conf : Config) (peer : IpAddr) (pre : List Ev) (c : Message)
    (h : Reveals mac (withPolicy conf .FullAuth) peer pre c) : Reveals mac (withPolicy conf .BasicAuth) peer pre c := by
  obtain ⟨hsent, ht⟩ := h
  obtain ⟨k, key, res, tl, rfl, hv, hg2⟩ := full_auth_silent mac (withPolicy conf .FullAuth) rfl peer _ _ ht pre c true [] rfl
  have hg1 : Granted (withPolicy conf .BasicAuth) k.user k.resource res := ⟨hg2.configured, hg2.allowed, hg2.notControl⟩
  have hv1 : ValidKnock mac (withPolicy conf .BasicAuth) k key := ⟨hv.op, hv.known, hv.tag⟩
  rw [List.cons_append, session_after_knock mac _ peer k key res hv hg2] at ht
  obtain ⟨s, n, hs, hn, rfl, rfl⟩ := challenge_first mac _ peer k.user k.resource key res _ tl c true (by simpa using hsent) ht
  refine ⟨by simp, ?_⟩
  rw [List.cons_append, session_after_knock mac _ peer k key res hv1 hg1]
  obtain ⟨rest, hr⟩ := challenge_stage mac (withPolicy conf .BasicAuth) peer k.user k.resource key res ⟨some k.user, some k.resource, .BasicAuth⟩ s n hs hn
  refine (hr _ _).2 ⟨true, rfl, ?_⟩
  cases rest true with
  | ret r => exact ⟨rfl, .inl rfl⟩
  | act a f => rfl

/-- **C139** (exactly). Of what reveals the server with basic-auth, full-auth hides exactly the answers to Knocks for resources that are not granted to their user. -/
theorem C139_exact (mac : MacFn) (conf : Config) (peer : IpAddr) (pre : List Ev) (c : Message)
    (h : Reveals mac (withPolicy conf .BasicAuth) peer pre c) :
    (∃ c', Reveals mac (withPolicy conf .FullAuth) peer pre c') ↔
      ∃ k tl res, pre = ⟨.recv, .msg k⟩ :: tl ∧ Granted conf k.user k.resource res := by
  constructor
  · rintro ⟨c', _, ht⟩
    obtain ⟨k, _, res, tl, hp, _, hg⟩ := full_auth_silent mac (withPolicy conf .FullAuth) rfl peer _ _ ht pre c' true [] rfl
    exact ⟨k, tl, res, hp, hg.configured, hg.allowed, hg.notControl⟩
  · rintro ⟨k, tl, res, hp, hg⟩
    obtain ⟨k', _, _, hp', _, h2⟩ := C139_enough_partial mac conf peer pre c h
    rw [hp] at hp'
    cases hp'
    exact ⟨c, (h2 ⟨res, hg⟩).2⟩

/-! ### The negation and examples -/

/-- A Knock with a valid tag for a resource that is granted to another user only. -/
def deniedKnock : Message :=
  let m := Message.new .Knock ⟨0xA423DDA7⟩ ⟨1⟩ goodSalt
  { m with auth := m.authenticate toyMac (Arr.replicate 32 7) ZERO_AUTH }

/-- The circumstances: this Knock, and random bytes for the salt of the Go-Away. -/
def deniedPre : List Ev := [⟨.recv, .msg deniedKnock⟩, ⟨.rand8, some goodSalt⟩]

/-- The Go-Away. -/
def deniedReply : Message := Message.new .GoAway ⟨0xA423DDA7⟩ ⟨1⟩ goodSalt

theorem denied_revealed : Reveals toyMac (withPolicy exampleConf .BasicAuth) examplePeer deniedPre deniedReply := by
  refine ⟨by decide +kernel, ?_⟩
  have h1 : (play (session toyMac (withPolicy exampleConf .BasicAuth) examplePeer)
      [.recv (.msg deniedKnock), .r8 (some goodSalt), .bool true]).1 = deniedPre ++ [⟨.send deniedReply, true⟩] := by decide +kernel
  have h2 := play_trace (session toyMac (withPolicy exampleConf .BasicAuth) examplePeer) [.recv (.msg deniedKnock), .r8 (some goodSalt), .bool true]
  rw [h1] at h2
  exact trace_stop h2

/-- **C139** (the negation). The claim is false: a Knock for a resource that is not granted to the user, or a replay of it, is answered with a Go-Away with basic-auth,
before any handshake, and with nothing at all with full-auth. -/
theorem C139_negation : ¬ C139_statement := by
  intro h
  obtain ⟨c', _, ht⟩ := h toyMac exampleConf examplePeer deniedPre deniedReply denied_revealed
  obtain ⟨x, hx, ht⟩ := ht
  cases hx
  have hk : (play (session toyMac (withPolicy exampleConf .FullAuth) examplePeer) [.recv (.msg deniedKnock)]).2 = some .err := by decide +kernel
  have : ∀ (p : RecvOut → Prog Unit) tr, (play (Prog.act .recv p) [.recv (.msg deniedKnock)]).2 = some .err →
      (p (.msg deniedKnock)).Trace tr none → tr = [] := by
    intro p tr h1 h2
    cases hp : p (.msg deniedKnock) with
    | ret r => rw [hp] at h2; exact h2.1
    | act a f => simp [play, Ans.as, hp] at h1
  exact absurd (this _ _ hk ht) (by simp [deniedPre])

/-- The hypotheses of the positive theorems are met by the example session with basic-auth. -/
example : ∃ pre c res, Reveals toyMac (withPolicy exampleConf .BasicAuth) examplePeer pre c ∧ pre.length = 3 ∧
    Granted exampleConf exampleKnock.user exampleKnock.resource res := by
  have h1 : (play (session toyMac (withPolicy exampleConf .BasicAuth) examplePeer)
      [.recv (.msg exampleKnock), .r8 (some goodSalt), .r32 (some goodNonce), .bool true]).1 =
      [⟨.recv, .msg exampleKnock⟩, ⟨.rand8, some goodSalt⟩, ⟨.rand32, some goodNonce⟩] ++
        [⟨.send { Message.new .Challenge ⟨0xA423DDA7⟩ ⟨0xBC5D8077⟩ goodSalt with auth := goodNonce }, true⟩] := by decide +kernel
  have h2 := play_trace (session toyMac (withPolicy exampleConf .BasicAuth) examplePeer)
    [.recv (.msg exampleKnock), .r8 (some goodSalt), .r32 (some goodNonce), .bool true]
  rw [h1] at h2
  refine ⟨_, _, { port := 22, tcp := true, udp := false, users := [] }, ⟨by decide +kernel, trace_stop h2⟩, rfl, ?_, .inl rfl, by decide +kernel⟩
  decide +kernel

end Letmein.Props
