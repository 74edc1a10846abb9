import Verif.Lemmas.Wire

/-!
# Properties C01–C04: knock-protocol messages and their authentication
-/

set_option linter.unusedSimpArgs false

namespace Letmein.Props

open Letmein

/-- Operation numbers of `/repo/doc/PROTOCOL.md:24-30`, written down independently of the model. -/
def opNumber : Operation → Nat
  | .Knock => 0 | .Challenge => 1 | .Response => 2 | .ComeIn => 3 | .GoAway => 4

theorem opNumber_eq (op : Operation) : op.toU32.toNat = opNumber op := by cases op <;> rfl

theorem opNumber_inj {a b : Operation} (h : opNumber a = opNumber b) : a = b := by
  cases a <;> cases b <;> first | rfl | (simp [opNumber] at h)

theorem opNumber_lt (a : Operation) : opNumber a < 256 ^ 4 := by cases a <;> decide

/-! ## C01 -/

/-- **C01** (layout). Serialization succeeds and gives the 56-byte image of PROTOCOL.md.
The magic is that of every message built by `Message::new` or by the decoder
(`C01_new_magic`, `C02_decode_iff`). -/
theorem C01_serialize_layout (m : Message) (hm : m.magic = MAGIC) :
    m.serialize = .ok (Spec.knockImage (opNumber m.operation) m.user.raw.toNat m.resource.raw.toNat
      m.salt.val m.auth.val) ∧
    (Spec.knockImage (opNumber m.operation) m.user.raw.toNat m.resource.raw.toNat
      m.salt.val m.auth.val).length = 56 := by
  constructor
  · rw [serialize_eq, hm]
    simp only [be32_eq, opNumber_eq, Spec.knockImage]
    rfl
  · have hs : m.salt.val.length = 8 := m.salt.property
    have ha : m.auth.val.length = 32 := m.auth.property
    simp [Spec.knockImage, hs, ha]

/-- **C01** (every freshly built message carries the magic and the given fields). -/
theorem C01_new_magic (op : Operation) (u : UserId) (r : ResourceId) (salt : Salt) :
    (Message.new op u r salt).magic.toNat = 0x3B1BB719 ∧ (Message.new op u r salt).operation = op ∧
    (Message.new op u r salt).user = u ∧ (Message.new op u r salt).resource = r ∧
    (Message.new op u r salt).salt = salt := ⟨rfl, rfl, rfl, rfl, rfl⟩

/-- **C01** (round trip). Whatever is sent is received as the same message. -/
theorem C01_roundtrip (m : Message) (hm : m.magic = MAGIC) :
    (m.serialize >>= Message.deserialize) = .ok m := by
  rw [(C01_serialize_layout m hm).1, R.bind_ok, deserialize_ok_iff, opNumber_eq, hm]
  exact ⟨rfl, rfl⟩

/-- A concrete message: the one of the unit test, with all fields non-trivial. -/
def exampleMsg : Message :=
  { magic := MAGIC, operation := .Response, user := ⟨0xA423DDA7⟩, resource := ⟨0xBC5D8077⟩,
    salt := ⟨[1, 2, 3, 4, 5, 6, 7, 8], rfl⟩, auth := Arr.replicate 32 0x5C }

example : exampleMsg.magic = MAGIC := rfl
example : (exampleMsg.serialize >>= Message.deserialize) = .ok exampleMsg := C01_roundtrip _ rfl
example : exampleMsg.serialize = .ok ([0x3B, 0x1B, 0xB7, 0x19, 0, 0, 0, 2, 0xA4, 0x23, 0xDD, 0xA7, 0xBC, 0x5D, 0x80, 0x77,
    1, 2, 3, 4, 5, 6, 7, 8] ++ List.replicate 32 0x5C) := by decide +kernel

/-! ## C02 -/

/-- **C02** (exact acceptance). The decoder returns a message exactly on the image of that message. -/
theorem C02_decode_iff (buf : Bytes) (m : Message) :
    Message.deserialize buf = .ok m ↔
      m.magic.toNat = 0x3B1BB719 ∧
      buf = Spec.knockImage (opNumber m.operation) m.user.raw.toNat m.resource.raw.toNat m.salt.val m.auth.val := by
  rw [deserialize_ok_iff]
  constructor
  · rintro ⟨h1, h2⟩
    refine ⟨by rw [h1]; rfl, ?_⟩
    rw [h2, h1, opNumber_eq]; rfl
  · rintro ⟨h1, h2⟩
    have h1' : m.magic = MAGIC := UInt32.toNat_inj.mp h1
    refine ⟨h1', ?_⟩
    rw [h2, h1', opNumber_eq]; rfl

/-- **C02** (acceptance set). A byte string is accepted iff it is well formed. -/
theorem C02_accept_iff (buf : Bytes) :
    (∃ m, Message.deserialize buf = .ok m) ↔ Spec.KnockWellFormed buf := by
  constructor
  · rintro ⟨m, h⟩
    obtain ⟨_, rfl⟩ := (C02_decode_iff _ _).1 h
    have hs : m.salt.val.length = 8 := m.salt.property
    have ha : m.auth.val.length = 32 := m.auth.property
    refine ⟨by simp [Spec.knockImage, hs, ha], ?_, ?_⟩
    · simp only [Spec.knockImage, List.append_assoc]
      rw [List.take_append_of_le_length (by simp), List.take_of_length_le (by simp), beVal_be]
    · simp only [Spec.knockImage, List.append_assoc]
      rw [List.drop_append_of_le_length (by simp), List.drop_of_length_le (by simp), List.nil_append,
        List.take_append_of_le_length (by simp), List.take_of_length_le (by simp), beVal_be]
      cases m.operation <;> decide
  · rintro ⟨hl, hmag, hop⟩
    obtain ⟨a, b, c, d, s, t, rfl⟩ := split_fields buf hl
    have ea : ((a.val ++ b.val ++ c.val ++ d.val ++ s.val ++ t.val).take 4) = a.val := by
      simp only [List.append_assoc]
      rw [List.take_append_of_le_length (by simp [a.property]), List.take_of_length_le (by simp [a.property])]
    have eb : (((a.val ++ b.val ++ c.val ++ d.val ++ s.val ++ t.val).drop 4).take 4) = b.val := by
      simp only [List.append_assoc]
      rw [List.drop_append_of_le_length (by simp [a.property]), List.drop_of_length_le (by simp [a.property]),
        List.nil_append, List.take_append_of_le_length (by simp [b.property]),
        List.take_of_length_le (by simp [b.property])]
    rw [ea] at hmag
    rw [eb, ← ofBe32_toNat] at hop
    obtain ⟨op, hop⟩ := (tryFrom_isOk_iff _).2 hop
    have hmag' : ofBe32 a = MAGIC := UInt32.toNat_inj.mp (by rw [ofBe32_toNat, hmag]; rfl)
    rw [deserialize_fields, rensure_true (by simp [hmag']), R.bind_ok, hop, R.bind_ok]
    exact ⟨_, rfl⟩

/-- **C02** (canonical). Re-encoding a decoded message gives the same bytes; so no two byte strings
denote the same message. -/
theorem C02_canonical (buf : Bytes) (m : Message) (h : Message.deserialize buf = .ok m) :
    m.serialize = .ok buf := by
  obtain ⟨h1, h2⟩ := (C02_decode_iff _ _).1 h
  rw [(C01_serialize_layout m (UInt32.toNat_inj.mp h1)).1, h2]

/-- **C02** (no panic). -/
theorem C02_no_panic (buf : Bytes) : Message.deserialize buf ≠ .panic := deserialize_ne_panic buf

example : Spec.KnockWellFormed ([0x3B, 0x1B, 0xB7, 0x19, 0, 0, 0, 4] ++ List.replicate 48 0xEE) := by
  refine ⟨rfl, ?_, ?_⟩ <;> decide
example : ¬ Spec.KnockWellFormed ([0x3B, 0x1B, 0xB7, 0x19, 0, 0, 0, 5] ++ List.replicate 48 0xEE) := by
  rintro ⟨_, _, h⟩; revert h; decide
example : Message.deserialize ([0x3B, 0x1B, 0xB7, 0x19, 0, 0, 0, 4] ++ List.replicate 47 0xEE) = .err := by
  decide +kernel

/-! ## C03 -/

/-- **C03** (the MAC input is that of PROTOCOL.md). -/
theorem C03_macText_spec (m : Message) (c : Auth) :
    m.macText c = Spec.authText (opNumber m.operation) m.user.raw.toNat m.resource.raw.toNat m.salt.val c.val := by
  simp only [Message.macText, be32_eq, opNumber_eq, Spec.authText]

/-- **C03** (injectivity). The authenticated text determines operation, user, resource, salt, challenge. -/
theorem C03_macText_injective (m₁ m₂ : Message) (c₁ c₂ : Auth) (h : m₁.macText c₁ = m₂.macText c₂) :
    m₁.operation = m₂.operation ∧ m₁.user = m₂.user ∧ m₁.resource = m₂.resource ∧
    m₁.salt = m₂.salt ∧ c₁ = c₂ := by
  rw [C03_macText_spec, C03_macText_spec] at h
  simp only [Spec.authText] at h
  have hs : m₁.salt.val.length = m₂.salt.val.length := m₁.salt.property.trans m₂.salt.property.symm
  obtain ⟨h, hc⟩ := List.append_inj h (by simp [hs])
  obtain ⟨h, hsalt⟩ := List.append_inj h (by simp)
  obtain ⟨h, hr⟩ := List.append_inj h (by simp)
  obtain ⟨ho, hu⟩ := List.append_inj h (by simp)
  refine ⟨opNumber_inj (be_inj (opNumber_lt _) (opNumber_lt _) ho), ?_, ?_, Subtype.ext hsalt, Subtype.ext hc⟩
  · have := be_inj m₁.user.raw.toNat_lt m₂.user.raw.toNat_lt hu
    cases h1 : m₁.user; cases h2 : m₂.user
    simp only [h1, h2] at this
    rw [UInt32.toNat_inj.mp this]
  · have := be_inj m₁.resource.raw.toNat_lt m₂.resource.raw.toNat_lt hr
    cases h1 : m₁.resource; cases h2 : m₂.resource
    simp only [h1, h2] at this
    rw [UInt32.toNat_inj.mp this]

/-- Two different (key, text) pairs with the same tag. With HMAC-SHA3-256 nobody can exhibit one; collision
freedom for all pairs is impossible for 32-byte tags, so theorems are stated as "... or here is a collision". -/
def Collision (mac : MacFn) (k₁ : Key) (t₁ : Bytes) (k₂ : Key) (t₂ : Bytes) : Prop :=
  (k₁, t₁) ≠ (k₂, t₂) ∧ mac k₁ t₁ = mac k₂ t₂

/-- **C03** (tags are not transferable). If the tag computed for one message and challenge is also the tag of
another message and challenge, then key and all protected fields agree, or the two MAC inputs collide. -/
theorem C03_tag_binds (mac : MacFn) (m₁ m₂ : Message) (k₁ k₂ : Key) (c₁ c₂ : Auth)
    (h : m₁.authenticate mac k₁ c₁ = m₂.authenticate mac k₂ c₂) :
    (k₁ = k₂ ∧ m₁.operation = m₂.operation ∧ m₁.user = m₂.user ∧ m₁.resource = m₂.resource ∧
      m₁.salt = m₂.salt ∧ c₁ = c₂) ∨
    Collision mac k₁ (m₁.macText c₁) k₂ (m₂.macText c₂) := by
  by_cases he : (k₁, m₁.macText c₁) = (k₂, m₂.macText c₂)
  · injection he with hk ht
    exact .inl ⟨hk, C03_macText_injective _ _ _ _ ht⟩
  · exact .inr ⟨he, h⟩

/-- **C03** (domain separation). A knock tag is never a response tag, whatever the challenge, unless there is a collision. -/
theorem C03_knock_is_not_response (mac : MacFn) (m₁ m₂ : Message) (k₁ k₂ : Key) (c : Auth)
    (h₁ : m₁.operation = .Knock) (h₂ : m₂.operation = .Response)
    (h : m₁.authenticateNoChallenge mac k₁ = m₂.authenticate mac k₂ c) :
    Collision mac k₁ (m₁.macText ZERO_AUTH) k₂ (m₂.macText c) := by
  rcases C03_tag_binds mac m₁ m₂ k₁ k₂ ZERO_AUTH c h with h | h
  · rw [h₁, h₂] at h; exact absurd h.2.1 (by decide)
  · exact h

/-- A toy MAC for the examples: xor of the key bytes with the first 32 text bytes. -/
def toyMac : MacFn := fun k t =>
  ⟨List.zipWith (· ^^^ ·) k.val ((t ++ List.replicate 32 0).take 32), by
    have := k.property; simp [this]⟩

example : exampleMsg.macText ZERO_AUTH ≠ { exampleMsg with user := ⟨0xA423DDA8⟩ }.macText ZERO_AUTH := by
  decide +kernel
/-- The premise of `C03_knock_is_not_response` can be met: the toy MAC does collide. -/
example : ∃ (m₁ m₂ : Message) (k₁ k₂ : Key) (c : Auth), m₁.operation = .Knock ∧ m₂.operation = .Response ∧
    m₁.authenticateNoChallenge toyMac k₁ = m₂.authenticate toyMac k₂ c :=
  ⟨{ exampleMsg with operation := .Knock }, exampleMsg, Arr.replicate 32 0,
    ⟨[0, 0, 0, 2] ++ List.replicate 16 0 ++ List.replicate 12 0, rfl⟩, ZERO_AUTH, rfl, rfl, by decide +kernel⟩

/-! ## C04 -/

theorem authenticate_spec (mac : MacFn) (m : Message) (k : Key) (c : Auth) : m.authenticate mac k c =
    mac k (Spec.authText (opNumber m.operation) m.user.raw.toNat m.resource.raw.toNat m.salt.val c.val) := by
  rw [Message.authenticate, C03_macText_spec]

theorem authenticateNoChallenge_spec (mac : MacFn) (m : Message) (k : Key) : m.authenticateNoChallenge mac k =
    mac k (Spec.authText (opNumber m.operation) m.user.raw.toNat m.resource.raw.toNat m.salt.val
      (List.replicate 32 0)) := by
  rw [Message.authenticateNoChallenge, authenticate_spec]; rfl

/-- **C04** (meaning of a knock check). -/
theorem C04_check_knock_iff (mac : MacFn) (m : Message) (k : Key) :
    m.checkAuthOkNoChallenge mac k = .ok true ↔
      m.operation = .Knock ∧
      m.auth = mac k (Spec.authText 0 m.user.raw.toNat m.resource.raw.toNat m.salt.val (List.replicate 32 0)) := by
  cases h : m.operation <;>
    simp [Message.checkAuthOkNoChallenge, rassert, h, authenticateNoChallenge_spec, opNumber, -List.reduceReplicate]

/-- **C04** (meaning of a response check). -/
theorem C04_check_response_iff (mac : MacFn) (m ch : Message) (k : Key) :
    m.checkAuthOk mac k ch = .ok true ↔
      m.operation = .Response ∧ ch.operation = .Challenge ∧
      m.auth = mac k (Spec.authText 2 m.user.raw.toNat m.resource.raw.toNat m.salt.val ch.auth.val) := by
  cases h : m.operation <;> cases h' : ch.operation <;>
    simp [Message.checkAuthOk, rassert, h, h', Message.authenticate, C03_macText_spec, opNumber]

/-- **C04** (generated tags verify, knock). -/
theorem C04_knock_roundtrip (mac : MacFn) (m : Message) (k : Key) (h : m.operation = .Knock) :
    ∃ m', m.generateAuthNoChallenge mac k = .ok m' ∧ m'.checkAuthOkNoChallenge mac k = .ok true ∧
      m' = { m with auth := m'.auth } := by
  refine ⟨{ m with auth := m.authenticateNoChallenge mac k }, ?_, ?_, rfl⟩
  · simp [Message.generateAuthNoChallenge, rassert, h]
  · rw [C04_check_knock_iff]
    refine ⟨h, ?_⟩
    simp [authenticateNoChallenge_spec, opNumber, h, -List.reduceReplicate]

/-- **C04** (generated tags verify, response to a challenge). -/
theorem C04_response_roundtrip (mac : MacFn) (m ch : Message) (k : Key) (h : m.operation = .Response)
    (hc : ch.operation = .Challenge) :
    ∃ m', m.generateAuth mac k ch = .ok m' ∧ m'.checkAuthOk mac k ch = .ok true ∧
      m' = { m with auth := m'.auth } := by
  refine ⟨{ m with auth := m.authenticate mac k ch.auth }, ?_, ?_, rfl⟩
  · simp [Message.generateAuth, rassert, h, hc]
  · rw [C04_check_response_iff]
    refine ⟨h, hc, ?_⟩
    simp [Message.authenticate, C03_macText_spec, opNumber, h]

/-- **C04** (tampering with a response). A response generated with key `k` for challenge `ch`; any message
carrying its tag that verifies under some key for some challenge is identical in user, resource and salt, was checked
with the same key and the same challenge, or a MAC collision has been found. -/
theorem C04_tampered_response_rejected (mac : MacFn) (m m' ch ch' r : Message) (k k' : Key)
    (hgen : m.generateAuth mac k ch = .ok r) (htag : m'.auth = r.auth)
    (hok : m'.checkAuthOk mac k' ch' = .ok true) :
    (k' = k ∧ m'.user = m.user ∧ m'.resource = m.resource ∧ m'.salt = m.salt ∧ ch'.auth = ch.auth) ∨
    Collision mac k (m.macText ch.auth) k' (m'.macText ch'.auth) := by
  by_cases hch : ch.operation = .Challenge
  · by_cases hm : m.operation = .Response
    · simp [Message.generateAuth, rassert, hch, hm] at hgen
      subst hgen
      obtain ⟨h1, h2, h3⟩ := (C04_check_response_iff _ _ _ _).1 hok
      have h4 : m.authenticate mac k ch.auth = m'.authenticate mac k' ch'.auth := by
        have h5 : m'.authenticate mac k' ch'.auth = m'.auth := by rw [h3, authenticate_spec, h1]; rfl
        rw [h5, htag]
      rcases C03_tag_binds mac m m' k k' ch.auth ch'.auth h4 with h | h
      · exact .inl ⟨h.1.symm, h.2.2.1.symm, h.2.2.2.1.symm, h.2.2.2.2.1.symm, h.2.2.2.2.2.symm⟩
      · exact .inr h
    · simp [Message.generateAuth, rassert, hch, hm] at hgen
  · simp [Message.generateAuth, rassert, hch] at hgen

/-- **C04** (tampering with a knock). -/
theorem C04_tampered_knock_rejected (mac : MacFn) (m m' r : Message) (k k' : Key)
    (hgen : m.generateAuthNoChallenge mac k = .ok r) (htag : m'.auth = r.auth)
    (hok : m'.checkAuthOkNoChallenge mac k' = .ok true) :
    (k' = k ∧ m'.user = m.user ∧ m'.resource = m.resource ∧ m'.salt = m.salt) ∨
    Collision mac k (m.macText ZERO_AUTH) k' (m'.macText ZERO_AUTH) := by
  by_cases hm : m.operation = .Knock
  · simp [Message.generateAuthNoChallenge, rassert, hm] at hgen
    subst hgen
    obtain ⟨h1, h3⟩ := (C04_check_knock_iff _ _ _).1 hok
    have h4 : m.authenticate mac k ZERO_AUTH = m'.authenticate mac k' ZERO_AUTH := by
      have : m'.authenticate mac k' ZERO_AUTH = m'.auth := by rw [h3, authenticate_spec, h1]; rfl
      rw [this, htag]; rfl
    rcases C03_tag_binds mac m m' k k' ZERO_AUTH ZERO_AUTH h4 with h | h
    · exact .inl ⟨h.1.symm, h.2.2.1.symm, h.2.2.2.1.symm, h.2.2.2.2.1.symm⟩
    · exact .inr h
  · simp [Message.generateAuthNoChallenge, rassert, hm] at hgen

/-- A concrete challenge and response, generated and accepted. -/
def exampleChallenge : Message :=
  { exampleMsg with operation := .Challenge, auth := ⟨List.range 32 |>.map UInt8.ofNat, rfl⟩ }

example : ∃ r, exampleMsg.generateAuth toyMac (Arr.replicate 32 7) exampleChallenge = .ok r ∧
    r.checkAuthOk toyMac (Arr.replicate 32 7) exampleChallenge = .ok true ∧
    { r with user := ⟨1⟩ }.checkAuthOk toyMac (Arr.replicate 32 7) exampleChallenge = .ok false :=
  ⟨{ exampleMsg with auth := exampleMsg.authenticate toyMac (Arr.replicate 32 7) exampleChallenge.auth },
    by decide +kernel, by decide +kernel, by decide +kernel⟩

end Letmein.Props
