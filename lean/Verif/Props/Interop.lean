import Verif.Props.Sha3
import Verif.Props.Client

/-!
# C127: other implementations of the documented protocol work together with letmein

`/repo/doc/PROTOCOL.md` describes the messages as bytes and the conversation as a table. The other side is anything that follows this description, with HMAC and SHA3-256
as the standards define them; it need not be letmein.
-/

namespace Letmein.Spec
open Letmein Prog

/-- `/repo/doc/PROTOCOL.md:3-66` a message with the given fields. -/
structure DocMsg (op user resource : Nat) (salt auth b : List UInt8) : Prop where
  saltLen : salt.length = 8
  authLen : auth.length = 32
  image : b = knockImage op user resource salt auth

/-- `/repo/doc/PROTOCOL.md:100-116` -/
def DocKnock (key : List UInt8) (user resource : Nat) (b : List UInt8) : Prop :=
  ∃ salt auth, DocMsg 0 user resource salt auth b ∧ bitsOf auth = fipsHmac key (authText 0 user resource salt (List.replicate 32 0))

/-- `/repo/doc/PROTOCOL.md:118-127` -/
def DocChallenge (user resource : Nat) (token b : List UInt8) : Prop := ∃ salt, DocMsg 1 user resource salt token b

/-- `/repo/doc/PROTOCOL.md:129-146` -/
def DocResponse (key : List UInt8) (user resource : Nat) (token b : List UInt8) : Prop :=
  ∃ salt auth, DocMsg 2 user resource salt auth b ∧ bitsOf auth = fipsHmac key (authText 2 user resource salt token)

/-- `/repo/doc/PROTOCOL.md:148-156` -/
def DocComeIn (user resource : Nat) (b : List UInt8) : Prop := ∃ salt auth, DocMsg 3 user resource salt auth b

/-- `/repo/doc/PROTOCOL.md:158-166` -/
def DocGoAway (user resource : Nat) (b : List UInt8) : Prop := ∃ salt auth, DocMsg 4 user resource salt auth b

/-- A line of the table. -/
inductive Line where
  | client (b : List UInt8)
  | server (b : List UInt8)
  deriving DecidableEq

/-- `/repo/doc/PROTOCOL.md:70-78` the table "Successful knocking". -/
def DocTable (key : List UInt8) (user resource : Nat) (l : List Line) : Prop :=
  ∃ k c token r ci, l = [.client k, .server c, .client r, .server ci] ∧ DocKnock key user resource k ∧ DocChallenge user resource token c ∧
    DocResponse key user resource token r ∧ DocComeIn user resource ci

/-- The bytes that one side, which says `us` and hears `them`, exchanges in the course of its actions. -/
inductive Dialogue (us them : List UInt8 → Line) : List Ev → List Line → Prop
  | nil : Dialogue us them [] []
  | heard {b m tr l} (h : Message.deserialize b = .ok m) : Dialogue us them tr l → Dialogue us them (⟨.recv, .msg m⟩ :: tr) (them b :: l)
  | said {b m tr l} (h : m.serialize = .ok b) : Dialogue us them tr l → Dialogue us them (⟨.send m, true⟩ :: tr) (us b :: l)
  | other {e tr l} (h1 : ∀ x, e ≠ ⟨.recv, x⟩) (h2 : sentMsg e = none) : Dialogue us them tr l → Dialogue us them (e :: tr) l

/-- Nothing fails that is not the other side's business: connecting, transmitting, the random numbers, and letmeinfwd, which acknowledges. -/
def Works (tr : List Ev) : Prop := ∀ e ∈ tr,
  match e with
  | ⟨.connect, ok⟩ => ok = true
  | ⟨.recv, _⟩ => True
  | ⟨.send _, ok⟩ => ok = true
  | ⟨.rand8, raw⟩ => ¬ BadRandom raw
  | ⟨.rand32, raw⟩ => ¬ BadRandom raw
  | ⟨.fwConnect, ok⟩ => ok = true
  | ⟨.fwSend _, ok⟩ => ok = true
  | ⟨.fwRecv, x⟩ => ∃ reply, x = .msg reply ∧ reply.operation = .Ack

/-- Whatever the session hears is what a client that follows the document says: first a KNOCK, and when it has heard a CHALLENGE the RESPONSE to it. -/
def FollowsClient (key : List UInt8) (user resource : Nat) (tr : List Ev) : Prop :=
  ∀ pre x post, tr = pre ++ ⟨.recv, x⟩ :: post → ∃ b m, x = .msg m ∧ Message.deserialize b = .ok m ∧
    (sent pre = [] → DocKnock key user resource b) ∧
    ∀ c cb token, sent pre = [c] → c.serialize = .ok cb → DocChallenge user resource token cb → DocResponse key user resource token b

/-- Whatever the client hears is what a server that follows the document, and opens the port, says: after a valid KNOCK a CHALLENGE, and after the valid RESPONSE to it COMEIN. -/
def FollowsServer (key : List UInt8) (user resource : Nat) (tr : List Ev) : Prop :=
  ∀ pre x post, tr = pre ++ ⟨.recv, x⟩ :: post → ∃ b m, x = .msg m ∧ Message.deserialize b = .ok m ∧
    (∀ k kb, sent pre = [k] → k.serialize = .ok kb → DocKnock key user resource kb → ∃ token, DocChallenge user resource token b) ∧
    ∀ k r c rb cb token, sent pre = [k, r] → received pre = [c] → Message.deserialize cb = .ok c → DocChallenge user resource token cb → r.serialize = .ok rb →
      DocResponse key user resource token rb → DocComeIn user resource b

end Letmein.Spec

namespace Letmein.Props
open Letmein Prog Spec

theorem docMsg_decode {op : Operation} {u : UserId} {r : ResourceId} {salt auth b : Bytes} (h : DocMsg (opNumber op) u.raw.toNat r.raw.toNat salt auth b) {m : Message}
    (hm : Message.deserialize b = .ok m) : m = { magic := MAGIC, operation := op, user := u, resource := r, salt := ⟨salt, h.saltLen⟩, auth := ⟨auth, h.authLen⟩ } := by
  have : Message.deserialize b = .ok { magic := MAGIC, operation := op, user := u, resource := r, salt := ⟨salt, h.saltLen⟩, auth := ⟨auth, h.authLen⟩ } :=
    (C02_decode_iff _ _).2 ⟨rfl, h.image⟩
  rw [this] at hm
  cases hm
  rfl

theorem image_doc (m : Message) (hm : m.magic = MAGIC) : m.serialize = .ok (knockImage (opNumber m.operation) m.user.raw.toNat m.resource.raw.toNat m.salt.val m.auth.val) ∧
    DocMsg (opNumber m.operation) m.user.raw.toNat m.resource.raw.toNat m.salt.val m.auth.val
      (knockImage (opNumber m.operation) m.user.raw.toNat m.resource.raw.toNat m.salt.val m.auth.val) :=
  ⟨(C01_serialize_layout m hm).1, m.salt.property, m.auth.property, rfl⟩

theorem tag_fips {k : Key} {text : Bytes} {a : Auth} : a = hmacSha3 k text ↔ bitsOf a.val = fipsHmac k.val text := by
  rw [← C95_hmac]
  exact ⟨fun h => by rw [h], fun h => Subtype.ext (bitsOf_inj h)⟩

/-- A message that decodes and is a valid Knock is a documented one. -/
theorem docKnock_iff {conf : Config} {key : Key} {b : Bytes} {m : Message} (hm : Message.deserialize b = .ok m) (hk : conf.key m.user = some key) :
    ValidKnock hmacSha3 conf m key ↔ DocKnock key.val m.user.raw.toNat m.resource.raw.toNat b := by
  constructor
  · intro h
    obtain ⟨h1, h2⟩ := (C02_decode_iff _ _).1 hm
    rw [h.op] at h2
    exact ⟨m.salt.val, m.auth.val, ⟨m.salt.property, m.auth.property, h2⟩, tag_fips.1 h.tag⟩
  · rintro ⟨salt, auth, h1, h2⟩
    have e := docMsg_decode (op := .Knock) h1 hm
    have e1 : m.operation = .Knock := by rw [e]
    have e2 : m.salt.val = salt := by rw [e]
    have e3 : m.auth.val = auth := by rw [e]
    exact ⟨e1, hk, tag_fips.2 (by rw [e2, e3]; exact h2)⟩

theorem docResponse_iff {key : Key} {c : Auth} {b : Bytes} {m : Message} (hm : Message.deserialize b = .ok m) :
    ValidResponse hmacSha3 key c m ↔ DocResponse key.val m.user.raw.toNat m.resource.raw.toNat c.val b := by
  constructor
  · intro h
    obtain ⟨h1, h2⟩ := (C02_decode_iff _ _).1 hm
    rw [h.op] at h2
    exact ⟨m.salt.val, m.auth.val, ⟨m.salt.property, m.auth.property, h2⟩, tag_fips.1 h.tag⟩
  · rintro ⟨salt, auth, h1, h2⟩
    have e := docMsg_decode (op := .Response) h1 hm
    have e1 : m.operation = .Response := by rw [e]
    have e2 : m.salt.val = salt := by rw [e]
    have e3 : m.auth.val = auth := by rw [e]
    exact ⟨e1, tag_fips.2 (by rw [e2, e3]; exact h2)⟩

/-- The documented messages name user and resource. -/
theorem doc_ids {op : Operation} {u : UserId} {r : ResourceId} {salt auth b : Bytes} {m : Message} (hm : Message.deserialize b = .ok m)
    (h : DocMsg (opNumber op) u.raw.toNat r.raw.toNat salt auth b) : m.operation = op ∧ m.user = u ∧ m.resource = r := by
  rw [docMsg_decode h hm]
  exact ⟨rfl, rfl, rfl⟩

theorem notBad8 {raw : Option (Arr 8)} (h : ¬ BadRandom raw) : secureRandom 8 raw ≠ .panic := fun e => h ((secureRandom_panic_iff 8 (by decide) _).1 e)

theorem notBad32 {raw : Option (Arr 32)} (h : ¬ BadRandom raw) : secureRandom 32 raw ≠ .panic := fun e => h ((secureRandom_panic_iff 32 (by decide) _).1 e)

attribute [local simp] hist1 hist2 hist3 hist4 received sent fwRequests recvd sentMsg fwReq challengeMsg goAwayMsg Message.new List.filterMap_cons

/-- Obligations of a rejected session, which all contradict the same hypothesis. -/
theorem reject_absurd {F : List Ev → R Unit → Prop} {conf : Config} {st : PState} {h : List Ev} (hF : ∀ t v, F (h ++ t) v) :
    Ok (fun _ _ => True) F (reject conf st) h := by
  refine reject_ok (fun _ _ => trivial) (fun _ _ _ => trivial) (fun _ s b => hF _ _) (fun raw _ => hF _ _) (fun _ => ?_)
  have := hF [] .err
  rwa [List.append_nil] at this

/-- **C127** (server). Someone who follows PROTOCOL.md and has the key of a user to whom the configuration grants the resource talks to a session of letmeind, on whose side nothing fails. Then the
session ends with success; the bytes exchanged are those of the documented table; letmeinfwd is asked, once, to open the resource's port for the peer's address. -/
theorem C127_server {conf : Config} {peer : IpAddr} {key : Key} {u : UserId} {r : ResourceId} {res : Resource} (hk : conf.key u = some key) (hg : Granted conf u r res)
    (hp : res.tcp = true ∨ res.udp = true) {tr : List Ev} {v : R Unit} (ht : (session hmacSha3 conf peer).Trace tr (some v)) (hw : Works tr)
    (hc : FollowsClient key.val u.raw.toNat r.raw.toNat tr) :
    v = .ok () ∧ (∃ l, Dialogue .server .client tr l ∧ DocTable key.val u.raw.toNat r.raw.toNat l) ∧
    ∃ pt, opensTcp pt = res.tcp ∧ opensUdp pt = res.udp ∧ fwRequests tr = [FwMessage.newOpen peer pt res.port] := by
  -- what the peer says first
  have knock : ∀ m t, FollowsClient key.val u.raw.toNat r.raw.toNat (hist1 m ++ t) →
      ∃ b, Message.deserialize b = .ok m ∧ m.user = u ∧ m.resource = r ∧ m.operation = .Knock ∧ ValidKnock hmacSha3 conf m key := by
    intro m t h
    obtain ⟨b, m', e, h1, h2, _⟩ := h [] (.msg m) t (by simp)
    cases e
    have h3 := h2 rfl
    obtain ⟨salt, auth, h4, _⟩ := id h3
    obtain ⟨e1, e2, e3⟩ := doc_ids (op := .Knock) h1 h4
    refine ⟨b, h1, e2, e3, e1, ?_⟩
    rw [docKnock_iff h1 (by rw [e2]; exact hk), e2, e3]
    exact h3
  -- and in response
  have resp : ∀ m s n x t, FollowsClient key.val u.raw.toNat r.raw.toNat (hist2 m s n ++ ⟨.send (challengeMsg m s n), true⟩ :: ⟨.recv, x⟩ :: t) →
      ∃ b resp, x = .msg resp ∧ Message.deserialize b = .ok resp ∧ resp.user = u ∧ resp.resource = r ∧ ValidResponse hmacSha3 key n resp := by
    intro m s n x t h
    obtain ⟨_, _, hu, hr, _, _⟩ := knock m _ (by rw [hist2, List.append_assoc] at h; exact h)
    obtain ⟨b, m', e, h1, _, h2⟩ := h (hist2 m s n ++ [⟨.send (challengeMsg m s n), true⟩]) x t (by simp)
    obtain ⟨d1, d2⟩ := image_doc (challengeMsg m s n) rfl
    have h3 := h2 (challengeMsg m s n) _ n.val (by simp) d1 ⟨s.val, by
      have := d2
      simp only [challengeMsg, Message.new, hu, hr] at this ⊢
      exact this⟩
    obtain ⟨salt, auth, h4, _⟩ := id h3
    obtain ⟨_, e2, e3⟩ := doc_ids (op := .Response) h1 h4
    refine ⟨b, m', e, h1, e2, e3, ?_⟩
    rw [docResponse_iff h1, e2, e3]
    exact h3
  have ob : SessionObl hmacSha3 conf peer (fun _ _ => True) (fun h v => Works h → FollowsClient key.val u.raw.toNat r.raw.toNat h →
      v = .ok () ∧ (∃ l, Dialogue .server .client h l ∧ DocTable key.val u.raw.toNat r.raw.toNat l) ∧
      ∃ pt, opensTcp pt = res.tcp ∧ opensUdp pt = res.udp ∧ fwRequests h = [FwMessage.newOpen peer pt res.port]) := by
    constructor
    case first => intros; trivial
    case firstFail =>
      intro _ hc
      obtain ⟨_, _, e, _⟩ := hc [] .fail [] rfl
      cases e
    case firstDisc =>
      intro _ hc
      obtain ⟨_, _, e, _⟩ := hc [] .disconnected [] rfl
      cases e
    case notKnock =>
      intro m hm
      refine reject_absurd fun t v _ hc => ?_
      obtain ⟨_, _, _, _, e, _⟩ := knock m t hc
      exact absurd e hm
    case badKnock =>
      intro m _ hm
      refine reject_absurd fun t v _ hc => ?_
      obtain ⟨_, _, _, _, _, e⟩ := knock m t hc
      exact absurd e (hm key)
    case denied =>
      intro m key' _ hm
      refine reject_absurd fun t v _ hc => ?_
      obtain ⟨_, _, hu, hr, _, _⟩ := knock m t hc
      exact absurd (by rw [hu, hr]; exact hg) (hm res)
    case chSalt =>
      intro m _ _ raw _ _
      exact ⟨trivial, fun hr hw _ => absurd hr (notBad8 (hw ⟨.rand8, raw⟩ (by simp)))⟩
    case chNonce =>
      intro m _ _ s raw _ _
      exact ⟨trivial, fun hr hw _ => absurd hr (notBad32 (hw ⟨.rand32, raw⟩ (by simp)))⟩
    case chSend => intros; trivial
    case chSendFail =>
      intro m _ _ s n _ _ hw _
      exact absurd (hw ⟨.send (challengeMsg m s n), false⟩ (by simp)) (by simp)
    case recv2 => intros; trivial
    case recv2Fail =>
      intro m _ _ s n x _ _ hx _ hc
      obtain ⟨_, _, e, _⟩ := resp m s n x [] hc
      rcases hx with rfl | rfl <;> cases e
    case badResponse =>
      intro m key' res' s n rm hv _ hb
      refine reject_absurd fun t v _ hc => ?_
      have hc2 : FollowsClient key.val u.raw.toNat r.raw.toNat (hist2 m s n ++ ⟨.send (challengeMsg m s n), true⟩ :: ⟨.recv, .msg rm⟩ :: t) := by
        simpa [hist3] using hc
      obtain ⟨_, _, hu, hr, _, _⟩ := knock m _ (by rw [hist2, List.append_assoc] at hc2; exact hc2)
      obtain ⟨_, _, e, _, h1, h2, h3⟩ := resp m s n _ t hc2
      cases e
      have e : key' = key := by
        have := hv.known
        rw [hu, hk] at this
        cases this; rfl
      subst e
      rcases hb with h | h | h
      · exact absurd (h1.trans hu.symm) h
      · exact absurd (h2.trans hr.symm) h
      · exact absurd h3 h
    case noProto =>
      intro m key' res' s n rm _ hg' _ hpt _ hc
      obtain ⟨_, _, hu, hr, _, _⟩ := knock m _ (by simpa [hist3] using hc)
      have e : res' = res := by
        have := hg'.configured
        rw [hr, hg.configured] at this
        cases this; rfl
      subst e
      unfold Resource.portType at hpt
      split at hpt <;> simp_all
    case fwConnect => intros; trivial
    case fwConnectFail =>
      intro m key' res' s n rm _
      exact reject_absurd fun t v hw _ => absurd (hw ⟨.fwConnect, false⟩ (by simp)) (by simp)
    case fwSend => intros; trivial
    case fwSendFail =>
      intro m key' res' s n rm pt _ _
      exact reject_absurd fun t v hw _ => absurd (hw ⟨.fwSend (FwMessage.newOpen peer pt res'.port), false⟩ (by simp)) (by simp)
    case fwRecv => intros; trivial
    case fwRecvFail =>
      intro m key' res' s n rm pt x _ _ hx
      refine reject_absurd fun t v hw _ => ?_
      obtain ⟨reply, h1, h2⟩ := hw ⟨.fwRecv, x⟩ (by simp)
      exact absurd h2 (hx reply h1)
    case ciSalt =>
      intro m key' res' s n rm pt reply raw _ _ _
      exact ⟨trivial, fun hr hw _ => absurd hr (notBad8 (hw ⟨.rand8, raw⟩ (by simp)))⟩
    case ciSend =>
      intro m key' res' s n rm pt reply s' b hf hpt _
      refine ⟨trivial, fun hw hc => ?_⟩
      have hb : b = true := hw ⟨.send (Message.new .ComeIn m.user m.resource s'), b⟩ (by simp)
      subst hb
      have hc2 : FollowsClient key.val u.raw.toNat r.raw.toNat (hist2 m s n ++ ⟨.send (challengeMsg m s n), true⟩ :: ⟨.recv, .msg rm⟩ ::
          [⟨.fwConnect, true⟩, ⟨.fwSend (FwMessage.newOpen peer pt res'.port), true⟩, ⟨.fwRecv, .msg reply⟩, ⟨.rand8, some s'⟩,
            ⟨.send (Message.new .ComeIn m.user m.resource s'), true⟩]) := by
        simpa [hist3, hist4] using hc
      obtain ⟨b1, hd1, hu, hr, _, hv⟩ := knock m _ (by rw [hist2, List.append_assoc] at hc2; exact hc2)
      obtain ⟨b2, _, e, hd2, h1, h2, h3⟩ := resp m s n _ _ hc2
      cases e
      have e : res' = res := by
        have := hf.granted.configured
        rw [hr, hg.configured] at this
        cases this; rfl
      subst e
      obtain ⟨d1, d2⟩ := image_doc (challengeMsg m s n) rfl
      obtain ⟨d3, d4⟩ := image_doc (Message.new .ComeIn m.user m.resource s') rfl
      obtain ⟨p1, p2⟩ := portType_spec hpt
      generalize knockImage (opNumber (challengeMsg m s n).operation) _ _ _ _ = cb at d1 d2
      generalize knockImage (opNumber (Message.new .ComeIn m.user m.resource s').operation) _ _ _ _ = ib at d3 d4
      refine ⟨rfl, ⟨[.client b1, .server cb, .client b2, .server ib], ?_, b1, cb, n.val, b2, ib, rfl, ?_, ⟨s.val, ?_⟩, ?_, ⟨s'.val, (Message.new .ComeIn m.user m.resource s').auth.val, ?_⟩⟩, pt, p1, p2, by simp⟩
      · exact .heard hd1 (.other (by simp) rfl (.other (by simp) rfl (.said d1 (.heard hd2 (.other (by simp) rfl (.other (by simp) rfl (.other (by simp) rfl
          (.other (by simp) rfl (.said d3 .nil)))))))))
      · have := (docKnock_iff hd1 hv.known).1 hv
        rwa [hu, hr] at this
      · have := d2
        simp only [challengeMsg, Message.new, hu, hr] at this ⊢
        exact this
      · have := (docResponse_iff hd2).1 h3
        rwa [h1, h2] at this
      · have := d4
        simp only [Message.new, hu, hr] at this ⊢
        exact this
  exact ((session_ok ob).sound ht).2 v rfl hw hc

/-- **C127** (server, nobody else). Conversely, whenever a session ends with success, the bytes exchanged are those of the documented table, with the key of the configured user, to whom the resource
is granted. (Messages that the session hears are decoded byte strings.) -/
theorem C127_server_only {conf : Config} {peer : IpAddr} {tr : List Ev} (ht : (session hmacSha3 conf peer).Trace tr (some (.ok ())))
    (hd : ∀ m ∈ received tr, ∃ b, Message.deserialize b = .ok m) :
    ∃ u r key res l, conf.key u = some key ∧ Granted conf u r res ∧ Dialogue .server .client tr l ∧ DocTable key.val u.raw.toNat r.raw.toNat l := by
  have ob : SessionObl hmacSha3 conf peer (fun _ _ => True) (fun h v => v = .ok () → (∀ m ∈ received h, ∃ b, Message.deserialize b = .ok m) →
      ∃ u r key res l, conf.key u = some key ∧ Granted conf u r res ∧ Dialogue .server .client h l ∧ DocTable key.val u.raw.toNat r.raw.toNat l) := by
    constructor <;> intros <;> try first
      | trivial
      | (rename_i hx _; cases hx; done)
      | (refine ⟨trivial, fun _ hx => ?_⟩; cases hx; done)
      | (refine reject_ok ?_ ?_ ?_ ?_ ?_ <;> intros <;> first | trivial | (rename_i hx _; cases hx; done))
    case ciSend m key res s n rm pt reply s' b hf hpt _ =>
      refine ⟨trivial, fun hb hd => ?_⟩
      cases b with
      | false => cases hb
      | true =>
        obtain ⟨b1, hd1⟩ := hd m (by simp)
        obtain ⟨b2, hd2⟩ := hd rm (by simp)
        obtain ⟨d1, d2⟩ := image_doc (challengeMsg m s n) rfl
        obtain ⟨d3, d4⟩ := image_doc (Message.new .ComeIn m.user m.resource s') rfl
        generalize knockImage (opNumber (challengeMsg m s n).operation) _ _ _ _ = cb at d1 d2
        generalize knockImage (opNumber (Message.new .ComeIn m.user m.resource s').operation) _ _ _ _ = ib at d3 d4
        refine ⟨m.user, m.resource, key, res, [.client b1, .server cb, .client b2, .server ib], hf.knockOk.known, hf.granted, ?_, b1, cb, n.val, b2, ib, rfl,
          (docKnock_iff hd1 hf.knockOk.known).1 hf.knockOk, ⟨s.val, d2⟩, ?_, ⟨s'.val, (Message.new .ComeIn m.user m.resource s').auth.val, d4⟩⟩
        · exact .heard hd1 (.other (by simp) rfl (.other (by simp) rfl (.said d1 (.heard hd2 (.other (by simp) rfl (.other (by simp) rfl (.other (by simp) rfl
            (.other (by simp) rfl (.said d3 .nil)))))))))
        · have := (docResponse_iff hd2).1 hf.respOk
          rwa [hf.sameUser, hf.sameResource] at this
  exact ((session_ok ob).sound ht).2 _ rfl rfl hd

/-- **C127** (client). The client talks to a server that follows PROTOCOL.md and opens the port. If nothing fails on the client's side, it ends with success, and the bytes exchanged are those of the
documented table. -/
theorem C127_client {u : UserId} {r : ResourceId} {key : Key} {tr : List Ev} {v : R Unit} (ht : (knockSequence hmacSha3 u r key).Trace tr (some v)) (hw : Works tr)
    (hc : FollowsServer key.val u.raw.toNat r.raw.toNat tr) :
    v = .ok () ∧ ∃ l, Dialogue .client .server tr l ∧ DocTable key.val u.raw.toNat r.raw.toNat l := by
  have kdoc : ∀ s, ∃ kb, (knockMsg hmacSha3 u r key s).serialize = .ok kb ∧ DocKnock key.val u.raw.toNat r.raw.toNat kb := by
    intro s
    obtain ⟨d1, d2⟩ := image_doc (knockMsg hmacSha3 u r key s) rfl
    exact ⟨_, d1, s.val, (knockMsg hmacSha3 u r key s).auth.val, d2, tag_fips.1 rfl⟩
  have rdoc : ∀ s c, ∃ rb, (responseMsg hmacSha3 u r key s c).serialize = .ok rb ∧ DocResponse key.val u.raw.toNat r.raw.toNat c.val rb := by
    intro s c
    obtain ⟨d1, d2⟩ := image_doc (responseMsg hmacSha3 u r key s c) rfl
    exact ⟨_, d1, s.val, (responseMsg hmacSha3 u r key s c).auth.val, d2, tag_fips.1 rfl⟩
  have first : ∀ s x t, FollowsServer key.val u.raw.toNat r.raw.toNat (chist1 hmacSha3 u r key s ++ ⟨.recv, x⟩ :: t) →
      ∃ b ch, x = .msg ch ∧ Message.deserialize b = .ok ch ∧ ch.operation = .Challenge ∧ DocChallenge u.raw.toNat r.raw.toNat ch.auth.val b := by
    intro s x t h
    obtain ⟨b, ch, e, h1, h2, _⟩ := h _ x t rfl
    obtain ⟨kb, k1, k2⟩ := kdoc s
    obtain ⟨token, salt, h4⟩ := h2 (knockMsg hmacSha3 u r key s) kb (by simp [chist1]) k1 k2
    have e2 := docMsg_decode (op := .Challenge) h4 h1
    have e3 : ch.auth.val = token := by rw [e2]
    exact ⟨b, ch, e, h1, by rw [e2], salt, by rw [e3]; exact h4⟩
  have second : ∀ s ch s' x t, FollowsServer key.val u.raw.toNat r.raw.toNat (chist2 hmacSha3 u r key s ch s' ++ ⟨.recv, x⟩ :: t) →
      ∃ b ci, x = .msg ci ∧ Message.deserialize b = .ok ci ∧ ci.operation = .ComeIn ∧ DocComeIn u.raw.toNat r.raw.toNat b := by
    intro s ch s' x t h
    obtain ⟨cb, _, e0, c1, _, c2⟩ := first s (.msg ch) (⟨.rand8, some s'⟩ :: ⟨.send (responseMsg hmacSha3 u r key s' ch.auth), true⟩ :: ⟨.recv, x⟩ :: t)
      (by simpa [chist2] using h)
    cases e0
    obtain ⟨b, ci, e, h1, _, h2⟩ := h _ x t rfl
    obtain ⟨rb, r1, r2⟩ := rdoc s' ch.auth
    have h3 := h2 (knockMsg hmacSha3 u r key s) (responseMsg hmacSha3 u r key s' ch.auth) ch rb cb ch.auth.val (by simp [chist2, chist1]) (by simp [chist2, chist1]) c1 c2 r1 r2
    obtain ⟨salt, auth, h4⟩ := id h3
    exact ⟨b, ci, e, h1, (doc_ids (op := .ComeIn) h1 h4).1, h3⟩
  have ob : ClientObl hmacSha3 u r key (fun _ _ => True) (fun h v => Works h → FollowsServer key.val u.raw.toNat r.raw.toNat h →
      v = .ok () ∧ ∃ l, Dialogue .client .server h l ∧ DocTable key.val u.raw.toNat r.raw.toNat l) := by
    constructor <;> intros <;> try trivial
    case connFail hw _ => exact absurd (hw ⟨.connect, false⟩ (by simp)) (by simp)
    case saltFail raw hr hw _ => exact absurd hr (notBad8 (hw ⟨.rand8, raw⟩ (by simp)))
    case knockFail s hw _ => exact absurd (hw ⟨.send (knockMsg hmacSha3 u r key s), false⟩ (by simp)) (by simp)
    case recvFail s x hx _ hc =>
      obtain ⟨_, ch, e, _, h1, _⟩ := first s x [] hc
      exact absurd h1 (hx ch e)
    case salt2Fail s ch raw _ hr hw _ => exact absurd hr (notBad8 (hw ⟨.rand8, raw⟩ (by simp)))
    case respFail s ch s' _ hw _ => exact absurd (hw ⟨.send (responseMsg hmacSha3 u r key s' ch.auth), false⟩ (by simp)) (by simp)
    case recv2Fail s ch s' x _ hx _ hc =>
      obtain ⟨_, ci, e, _, h1, _⟩ := second s ch s' x [] hc
      exact absurd h1 (hx ci e)
    case done s ch s' ci _ _ _ _ _ hc =>
      obtain ⟨kb, k1, k2⟩ := kdoc s
      obtain ⟨rb, r1, r2⟩ := rdoc s' ch.auth
      obtain ⟨cb, _, e, c1, _, c2⟩ := first s (.msg ch) (⟨.rand8, some s'⟩ :: ⟨.send (responseMsg hmacSha3 u r key s' ch.auth), true⟩ :: ⟨.recv, .msg ci⟩ :: [])
        (by simpa [chist2] using hc)
      cases e
      obtain ⟨ib, _, e, i1, _, i2⟩ := second s ch s' (.msg ci) [] hc
      cases e
      exact ⟨rfl, _, .other (by simp) rfl (.other (by simp) rfl (.said k1 (.heard c1 (.other (by simp) rfl (.said r1 (.heard i1 .nil)))))),
        kb, cb, ch.auth.val, rb, ib, rfl, k2, c2, r2, i2⟩
  exact ((client_ok ob).sound ht).2 v rfl hw hc

/-- **C127** (GOAWAY). If the last message the client hears is a GOAWAY, whenever it comes and whoever it is for, the client does not report success. -/
theorem C127_goaway {mac : MacFn} {u : UserId} {r : ResourceId} {key : Key} {tr : List Ev} {v : R Unit} (ht : (knockSequence mac u r key).Trace tr (some v)) {b : Bytes} {m : Message}
    {u' r' : Nat} (hb : DocGoAway u' r' b) (hm : Message.deserialize b = .ok m) (hl : (received tr).getLast? = some m) : v ≠ .ok () := by
  rintro rfl
  obtain ⟨_, _, _, ci, _, _, _, hci, _, hr, _⟩ := C13_success mac u r key tr ht
  have e : ci = m := by
    rw [hr] at hl
    exact Option.some.inj hl
  subst e
  obtain ⟨salt, auth, h⟩ := hb
  obtain ⟨_, h2⟩ := (C02_decode_iff _ _).1 hm
  rw [h.image, hci] at h2
  have := congrArg (fun l => (l.drop 7).take 1) h2
  simp [knockImage, be, opNumber] at this

/-! ## Such partners exist -/

/-- Whatever the answers are made of, the program runs to an end. -/
theorem run_with {α : Type} (ans : List Ev → (a : Act) → a.Resp) (p : Prog α) (h : List Ev) :
    ∃ tr v, p.Trace tr (some v) ∧ ∀ pre e post, tr = pre ++ e :: post → e.2 = ans (h ++ pre) e.1 := by
  induction p generalizing h with
  | ret r => exact ⟨[], r, ⟨rfl, .inr rfl⟩, by simp⟩
  | act a k ih =>
    obtain ⟨tr, v, h1, h2⟩ := ih (ans h a) (h ++ [⟨a, ans h a⟩])
    refine ⟨⟨a, ans h a⟩ :: tr, v, ⟨_, rfl, h1⟩, ?_⟩
    rintro (_ | ⟨x, pre⟩) e post he
    · cases he
      rw [List.append_nil]
    · simp only [List.cons_append, List.cons.injEq] at he
      obtain ⟨rfl, he⟩ := he
      have := h2 pre e post he
      rwa [List.append_assoc] at this

theorem goodSalt_not_bad : ¬ BadRandom (some goodSalt) := by
  rintro (h | ⟨b, x, h, hx⟩)
  · cases h
  · cases h
    exact absurd ((hx 1 (by decide)).trans (hx 2 (by decide)).symm) (by decide)

theorem goodNonce_not_bad : ¬ BadRandom (some goodNonce) := by
  rintro (h | ⟨b, x, h, hx⟩)
  · cases h
  · cases h
    exact absurd ((hx 1 (by decide)).trans (hx 2 (by decide)).symm) (by decide)

/-- Everything works, and `said` is what the other side says. -/
def worksAns (said : List Ev → Message) (h : List Ev) : (a : Act) → a.Resp
  | .connect => true
  | .recv => .msg (said h)
  | .send _ => true
  | .rand8 => some goodSalt
  | .rand32 => some goodNonce
  | .fwConnect => true
  | .fwSend _ => true
  | .fwRecv => .msg FwMessage.newAck

theorem worksAns_works {said : List Ev → Message} {tr : List Ev} (h : ∀ pre e post, tr = pre ++ e :: post → e.2 = worksAns said ([] ++ pre) e.1) : Works tr := by
  intro e he
  obtain ⟨pre, post, hs⟩ := List.append_of_mem he
  have h1 := h pre e post hs
  obtain ⟨a, x⟩ := e
  cases a <;> simp only [worksAns] at h1 <;> subst h1 <;> simp only
  · exact goodSalt_not_bad
  · exact goodNonce_not_bad
  · exact ⟨_, rfl, rfl⟩

theorem serialize_auth {m : Message} {b : Bytes} (h : m.serialize = .ok b) : b.drop 24 = m.auth.val := by
  rw [serialize_eq] at h
  cases h
  refine List.drop_left' ?_
  have hs : m.salt.val.length = 8 := m.salt.property
  simp [be32_eq, hs]

theorem image_auth {op u r : Nat} {salt auth : Bytes} (hs : salt.length = 8) : (knockImage op u r salt auth).drop 24 = auth := by
  unfold knockImage
  refine List.drop_left' ?_
  simp [hs]

/-- **C127** (server, possible). For every key, user and resource there is a run of the session in which everything works and the peer follows the document. -/
theorem C127_server_possible (conf : Config) (peer : IpAddr) (key : Key) (u : UserId) (r : ResourceId) :
    ∃ tr v, (session hmacSha3 conf peer).Trace tr (some v) ∧ Works tr ∧ FollowsClient key.val u.raw.toNat r.raw.toNat tr := by
  let said : List Ev → Message := fun h => match sent h with
    | [] => knockMsg hmacSha3 u r key goodSalt
    | c :: _ => responseMsg hmacSha3 u r key goodSalt c.auth
  obtain ⟨tr, v, h1, h2⟩ := run_with (worksAns said) (session hmacSha3 conf peer) []
  refine ⟨tr, v, h1, worksAns_works h2, fun pre x post hs => ?_⟩
  have hx : x = .msg (said pre) := h2 pre ⟨.recv, x⟩ post hs
  have dec : ∀ m : Message, m.magic = MAGIC → Message.deserialize (knockImage (opNumber m.operation) m.user.raw.toNat m.resource.raw.toNat m.salt.val m.auth.val) = .ok m :=
    fun m hm => (C02_decode_iff _ _).2 ⟨by rw [hm]; rfl, rfl⟩
  have hmagic : (said pre).magic = MAGIC := by
    show (match sent pre with
      | [] => knockMsg hmacSha3 u r key goodSalt
      | c :: _ => responseMsg hmacSha3 u r key goodSalt c.auth).magic = MAGIC
    split <;> rfl
  refine ⟨_, _, hx, dec _ hmagic, ?_, ?_⟩
  · intro he
    have e : said pre = knockMsg hmacSha3 u r key goodSalt := by simp only [said, he]
    rw [e]
    exact ⟨goodSalt.val, (knockMsg hmacSha3 u r key goodSalt).auth.val, (image_doc (knockMsg hmacSha3 u r key goodSalt) rfl).2, tag_fips.1 rfl⟩
  · rintro c cb token he hc ⟨salt, hd⟩
    have e : said pre = responseMsg hmacSha3 u r key goodSalt c.auth := by simp only [said, he]
    have e2 : token = c.auth.val := by
      rw [← serialize_auth hc, hd.image, image_auth hd.saltLen]
    rw [e, e2]
    exact ⟨goodSalt.val, (responseMsg hmacSha3 u r key goodSalt c.auth).auth.val, (image_doc (responseMsg hmacSha3 u r key goodSalt c.auth) rfl).2, tag_fips.1 rfl⟩

/-- **C127** (client, possible). The same for the client and a server that follows the document; the salts and the tag of COMEIN, which are ignored, are arbitrary. -/
theorem C127_client_possible (key : Key) (u : UserId) (r : ResourceId) (salt1 salt2 : Salt) (token tag : Auth) :
    ∃ tr v, (knockSequence hmacSha3 u r key).Trace tr (some v) ∧ Works tr ∧ FollowsServer key.val u.raw.toNat r.raw.toNat tr := by
  let ch : Message := { Message.new .Challenge u r salt1 with auth := token }
  let ci : Message := { Message.new .ComeIn u r salt2 with auth := tag }
  let said : List Ev → Message := fun h => if (sent h).length = 1 then ch else ci
  obtain ⟨tr, v, h1, h2⟩ := run_with (worksAns said) (knockSequence hmacSha3 u r key) []
  refine ⟨tr, v, h1, worksAns_works h2, fun pre x post hs => ?_⟩
  have hx : x = .msg (said pre) := h2 pre ⟨.recv, x⟩ post hs
  have dec : ∀ m : Message, m.magic = MAGIC → Message.deserialize (knockImage (opNumber m.operation) m.user.raw.toNat m.resource.raw.toNat m.salt.val m.auth.val) = .ok m :=
    fun m hm => (C02_decode_iff _ _).2 ⟨by rw [hm]; rfl, rfl⟩
  have hmagic : (said pre).magic = MAGIC := by
    simp only [said]
    split <;> rfl
  refine ⟨_, _, hx, dec _ hmagic, ?_, ?_⟩
  · intro k kb he _ _
    have e : said pre = ch := by
      show (if (sent pre).length = 1 then ch else ci) = ch
      rw [he]; rfl
    rw [e]
    exact ⟨token.val, salt1.val, (image_doc ch rfl).2⟩
  · intro k rr c rb cb tok he _ _ _ _ _
    have e : said pre = ci := by
      show (if (sent pre).length = 1 then ch else ci) = ci
      rw [he]; rfl
    rw [e]
    exact ⟨salt2.val, tag.val, (image_doc ci rfl).2⟩

/-- So the theorem applies, for example, to the user and the resource of the example configuration, and the run ends with success. -/
example : ∃ tr, (session hmacSha3 exampleConf examplePeer).Trace tr (some (.ok ())) ∧ ∃ l, Dialogue .server .client tr l ∧ l.length = 4 := by
  have hk : exampleConf.key ⟨0xA423DDA7⟩ = some (Arr.replicate 32 7) := by decide
  obtain ⟨tr, v, h1, h2, h3⟩ := C127_server_possible exampleConf examplePeer (Arr.replicate 32 7) ⟨0xA423DDA7⟩ ⟨0xBC5D8077⟩
  obtain ⟨rfl, ⟨l, hl, _, _, _, _, _, rfl, _⟩, _⟩ := C127_server hk ⟨rfl, by decide, by decide⟩ (by decide) h1 h2 h3
  exact ⟨tr, h1, _, hl, rfl⟩

/-- A documented KNOCK in bytes: the one of a unit test (`/repo/letmein-proto/src/lib.rs:442-464`). -/
example : DocKnock (List.replicate 32 0x9E) 0xA423DDA7 0xBC5D8077 ([0x3B, 0x1B, 0xB7, 0x19, 0, 0, 0, 0, 0xA4, 0x23, 0xDD, 0xA7, 0xBC, 0x5D, 0x80, 0x77] ++ List.replicate 8 0x4A ++
    [99, 153, 229, 224, 255, 22, 33, 154, 94, 191, 98, 153, 196, 29, 202, 24, 154, 47, 118, 25, 189, 10, 178, 234, 95, 129, 184, 174, 249, 254, 6, 0]) :=
  ⟨List.replicate 8 0x4A, testTag.val, ⟨by decide, by decide, by decide +kernel⟩, testTag_fips.symm⟩

/-- A GOAWAY for somebody else in bytes. -/
example : ∃ b m, DocGoAway 1 2 b ∧ Message.deserialize b = .ok m ∧
    ∃ tr, (knockSequence toyMac ⟨0xA423DDA7⟩ ⟨0xBC5D8077⟩ (Arr.replicate 32 7)).Trace tr (some .err) ∧ (received tr).getLast? = some m := by
  refine ⟨_, Message.new .GoAway ⟨1⟩ ⟨2⟩ goodSalt, ⟨goodSalt.val, _, (image_doc (Message.new .GoAway ⟨1⟩ ⟨2⟩ goodSalt) rfl).2⟩, (C02_decode_iff _ _).2 ⟨rfl, rfl⟩,
    (play (knockSequence toyMac ⟨0xA423DDA7⟩ ⟨0xBC5D8077⟩ (Arr.replicate 32 7)) [.bool true, .r8 (some goodSalt), .bool true, .recv (.msg (Message.new .GoAway ⟨1⟩ ⟨2⟩ goodSalt))]).1, ?_, by decide +kernel⟩
  have h : (play (knockSequence toyMac ⟨0xA423DDA7⟩ ⟨0xBC5D8077⟩ (Arr.replicate 32 7)) [.bool true, .r8 (some goodSalt), .bool true, .recv (.msg (Message.new .GoAway ⟨1⟩ ⟨2⟩ goodSalt))]).2 = some .err := by
    decide +kernel
  rw [← h]
  exact play_trace _ _

end Letmein.Props
