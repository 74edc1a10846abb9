import Verif.Model.Wire
import Verif.Spec.Wire

/-! Helper lemmas about big-endian integers, slices and the knock-protocol codec. -/

namespace Letmein

open Spec

attribute [local simp] MSG_SIZE SALT_SIZE AUTH_SIZE KEY_SIZE MSG_OFFS_MAGIC MSG_OFFS_OPERATION MSG_OFFS_USER
  MSG_OFFS_RESOURCE MSG_OFFS_SALT MSG_OFFS_AUTH

theorem uint8_ofNat_eq {a b : Nat} (h : a % 256 = b % 256) : UInt8.ofNat a = UInt8.ofNat b := by
  apply UInt8.toNat_inj.mp; simp [h]

theorem be32_eq (x : UInt32) : be32 x = be 4 x.toNat := by
  simp only [be32, be, List.nil_append, List.cons_append, List.cons.injEq, and_true]
  refine ⟨uint8_ofNat_eq ?_, uint8_ofNat_eq ?_⟩ <;> omega

theorem be16_eq (x : UInt16) : be16 x = be 2 x.toNat := by
  simp [be16, be]

@[simp] theorem be_length (n v : Nat) : (be n v).length = n := by
  induction n generalizing v with
  | zero => rfl
  | succ n ih => simp [be, ih]

theorem beVal_append_singleton (b : List UInt8) (x : UInt8) :
    beVal (b ++ [x]) = beVal b * 256 + x.toNat := by
  simp [beVal]

theorem beVal_be (n v : Nat) : beVal (be n v) = v % 256 ^ n := by
  induction n generalizing v with
  | zero => simp [be, beVal, Nat.mod_one]
  | succ n ih =>
    rw [be, beVal_append_singleton, ih]
    simp only [UInt8.toNat_ofNat', Nat.pow_succ]
    have := Nat.mod_mul_right_div_self v 256 (256 ^ n)
    have h2 : v % (256 ^ n * 256) % 256 = v % 256 := by
      rw [Nat.mul_comm]; exact Nat.mod_mul_right_mod v 256 (256 ^ n)
    rw [Nat.mul_comm] at this
    omega

theorem beVal_lt (b : List UInt8) : beVal b < 256 ^ b.length := by
  suffices h : ∀ (l : List UInt8), beVal l.reverse < 256 ^ l.length by
    simpa using h b.reverse
  intro l
  induction l with
  | nil => simp [beVal]
  | cons x l ih =>
    rw [List.reverse_cons, beVal_append_singleton, List.length_cons, Nat.pow_succ]
    have := x.toNat_lt
    omega

theorem be_beVal (b : List UInt8) : be b.length (beVal b) = b := by
  suffices h : ∀ (l : List UInt8), be l.length (beVal l.reverse) = l.reverse by
    simpa using h b.reverse
  intro l
  induction l with
  | nil => rfl
  | cons x l ih =>
    rw [List.reverse_cons, beVal_append_singleton, List.length_cons, be]
    have := x.toNat_lt
    have h1 : (beVal l.reverse * 256 + x.toNat) / 256 = beVal l.reverse := by omega
    rw [h1, ih]
    congr 2
    apply UInt8.toNat_inj.mp; simp

theorem be_inj {n a b : Nat} (ha : a < 256 ^ n) (hb : b < 256 ^ n) (h : be n a = be n b) : a = b := by
  have := congrArg beVal h
  rwa [beVal_be, beVal_be, Nat.mod_eq_of_lt ha, Nat.mod_eq_of_lt hb] at this

theorem ofBe32_toNat (b : Arr 4) : (ofBe32 b).toNat = beVal b.val := by
  obtain ⟨l, hl⟩ := b
  match l, hl with
  | [b0, b1, b2, b3], _ =>
    have h0 := b0.toNat_lt; have h1 := b1.toNat_lt; have h2 := b2.toNat_lt; have h3 := b3.toNat_lt
    simp only [ofBe32, beVal, List.foldl, UInt32.toNat_ofNat']
    omega

theorem ofBe16_toNat (b : Arr 2) : (ofBe16 b).toNat = beVal b.val := by
  obtain ⟨l, hl⟩ := b
  match l, hl with
  | [b0, b1], _ =>
    have h0 := b0.toNat_lt; have h1 := b1.toNat_lt
    simp only [ofBe16, beVal, List.foldl, UInt16.toNat_ofNat']
    omega

theorem ofBe32_be (b : Arr 4) (x : UInt32) : ofBe32 b = x ↔ b.val = be 4 x.toNat := by
  constructor
  · intro h
    have := be_beVal b.val
    rw [b.property, ← ofBe32_toNat, h] at this
    exact this.symm
  · intro h
    apply UInt32.toNat_inj.mp
    rw [ofBe32_toNat, h, beVal_be]
    exact Nat.mod_eq_of_lt x.toNat_lt

theorem ofBe16_be (b : Arr 2) (x : UInt16) : ofBe16 b = x ↔ b.val = be 2 x.toNat := by
  constructor
  · intro h
    have := be_beVal b.val
    rw [b.property, ← ofBe16_toNat, h] at this
    exact this.symm
  · intro h
    apply UInt16.toNat_inj.mp
    rw [ofBe16_toNat, h, beVal_be]
    exact Nat.mod_eq_of_lt x.toNat_lt

theorem rassert_true {b : Bool} (h : b = true) : rassert b = .ok () := by simp [rassert, h]
theorem rensure_true {b : Bool} (h : b = true) : rensure b = .ok () := by simp [rensure, h]

/-- Writing at the end of an already written prefix of a zero buffer. -/
theorem writeAt_prefix (pre data : Bytes) (z : Nat) (hz : data.length ≤ z) (off : Nat) (ho : off = pre.length) :
    writeAt (pre ++ List.replicate z 0) off data
      = .ok ((pre ++ data) ++ List.replicate (z - data.length) 0) := by
  subst ho
  have : pre.length + data.length ≤ (pre ++ List.replicate z (0 : UInt8)).length := by simp; omega
  simp [writeAt, hz, List.append_assoc]

theorem be32_length (x : UInt32) : (be32 x).length = 4 := rfl
theorem be16_length (x : UInt16) : (be16 x).length = 2 := rfl

theorem serialize_eq (m : Message) :
    m.serialize = .ok (be32 m.magic ++ be32 m.operation.toU32 ++ be32 m.user.raw ++ be32 m.resource.raw
      ++ m.salt.val ++ m.auth.val) := by
  have hs := m.salt.property
  have ha := m.auth.property
  unfold Message.serialize
  simp only [Arr.replicate]
  rw [show List.replicate MSG_SIZE (0 : UInt8) = [] ++ List.replicate MSG_SIZE 0 from rfl]
  rw [writeAt_prefix _ _ _ (by simp [be32_length]) _ (by rfl), R.bind_ok]
  rw [writeAt_prefix _ _ _ (by simp [be32_length]) _ (by simp [be32_length]), R.bind_ok]
  rw [writeAt_prefix _ _ _ (by simp [be32_length]) _ (by simp [be32_length]), R.bind_ok]
  rw [writeAt_prefix _ _ _ (by simp [be32_length]) _ (by simp [be32_length]), R.bind_ok]
  rw [writeAt_prefix _ _ _ (by simp [be32_length, hs]) _ (by simp [be32_length]), R.bind_ok]
  rw [writeAt_prefix _ _ _ (by simp [be32_length, hs, ha]) _ (by simp [be32_length, hs]), R.bind_ok]
  simp [be32_length, hs, ha]

/-- The four bytes at `off`, as a fixed-size array. -/
theorem deserializeU32_eq (buf : Bytes) (off : Nat) (h : off + 4 ≤ buf.length) :
    deserializeU32 buf off = .ok (ofBe32 ⟨(buf.drop off).take 4, by simp; omega⟩) := by
  have h1 : off ≤ buf.length := by omega
  have h2 : 4 ≤ buf.length - off := by omega
  simp [deserializeU32, sliceFrom, slice, toArr, h1, h2]

theorem tryFrom_ok_iff (v : UInt32) (op : Operation) : Operation.tryFrom v = .ok op ↔ v = op.toU32 := by
  unfold Operation.tryFrom
  constructor
  · intro h
    split at h
    · simp_all
    · split at h
      · simp_all
      · split at h
        · simp_all
        · split at h
          · simp_all
          · split at h <;> simp_all
  · rintro rfl; cases op <;> decide

theorem tryFrom_ne_panic (v : UInt32) : Operation.tryFrom v ≠ .panic := by
  unfold Operation.tryFrom
  repeat' split
  all_goals simp

theorem tryFrom_isOk_iff (v : UInt32) : (∃ op, Operation.tryFrom v = .ok op) ↔ v.toNat < 5 := by
  constructor
  · rintro ⟨op, h⟩
    rw [tryFrom_ok_iff] at h
    subst h
    cases op <;> decide
  · intro h
    have : v.toNat = 0 ∨ v.toNat = 1 ∨ v.toNat = 2 ∨ v.toNat = 3 ∨ v.toNat = 4 := by omega
    rcases this with h | h | h | h | h
    · exact ⟨.Knock, (tryFrom_ok_iff _ _).2 (UInt32.toNat_inj.mp h)⟩
    · exact ⟨.Challenge, (tryFrom_ok_iff _ _).2 (UInt32.toNat_inj.mp h)⟩
    · exact ⟨.Response, (tryFrom_ok_iff _ _).2 (UInt32.toNat_inj.mp h)⟩
    · exact ⟨.ComeIn, (tryFrom_ok_iff _ _).2 (UInt32.toNat_inj.mp h)⟩
    · exact ⟨.GoAway, (tryFrom_ok_iff _ _).2 (UInt32.toNat_inj.mp h)⟩

theorem slice_ok (buf : Bytes) (a b : Nat) (h : a ≤ b) (h2 : b ≤ buf.length) :
    slice buf a b = .ok ((buf.take b).drop a) := by simp [slice, h, h2]

theorem toArr_ok {n : Nat} {b : Bytes} (h : b.length = n) : toArr n b = .ok ⟨b, h⟩ := by
  simp [toArr, h]

/-- What the decoder does on a buffer of the right size. -/
theorem deserialize_eq (buf : Bytes) (h : buf.length = MSG_SIZE) :
    Message.deserialize buf = (do
      rensure (ofBe32 ⟨(buf.drop 0).take 4, by simp [h]⟩ = MAGIC)
      let op ← Operation.tryFrom (ofBe32 ⟨(buf.drop 4).take 4, by simp [h]⟩)
      R.ok { magic := ofBe32 ⟨(buf.drop 0).take 4, by simp [h]⟩, operation := op,
             user := ⟨ofBe32 ⟨(buf.drop 8).take 4, by simp [h]⟩⟩,
             resource := ⟨ofBe32 ⟨(buf.drop 12).take 4, by simp [h]⟩⟩,
             salt := ⟨(buf.take 24).drop 16, by simp [h]⟩,
             auth := ⟨(buf.take 56).drop 24, by simp [h]⟩ }) := by
  unfold Message.deserialize
  rw [rensure_true (by simp [h]), R.bind_ok]
  rw [deserializeU32_eq _ _ (by simp [h]), R.bind_ok]
  rw [deserializeU32_eq _ _ (by simp [h]), R.bind_ok]
  rw [deserializeU32_eq _ _ (by simp [h]), R.bind_ok]
  rw [deserializeU32_eq _ _ (by simp [h]), R.bind_ok]
  rw [slice_ok _ _ _ (by simp) (by simp [h]), R.bind_ok]
  rw [slice_ok _ _ _ (by simp) (by simp [h]), R.bind_ok]
  have hs : ((buf.take (MSG_OFFS_SALT + SALT_SIZE)).drop MSG_OFFS_SALT).length = SALT_SIZE := by simp [h]
  have ha : ((buf.take (MSG_OFFS_AUTH + AUTH_SIZE)).drop MSG_OFFS_AUTH).length = AUTH_SIZE := by simp [h]
  simp only [toArr_ok hs, toArr_ok ha, R.bind_ok]
  rfl

end Letmein

namespace Letmein

open Spec

attribute [local simp] MSG_SIZE SALT_SIZE AUTH_SIZE KEY_SIZE MSG_OFFS_MAGIC MSG_OFFS_OPERATION MSG_OFFS_USER
  MSG_OFFS_RESOURCE MSG_OFFS_SALT MSG_OFFS_AUTH

/-- Decoding a buffer given as the concatenation of its six fields. -/
theorem deserialize_fields (a b c d : Arr 4) (s : Salt) (t : Auth) :
    Message.deserialize (a.val ++ b.val ++ c.val ++ d.val ++ s.val ++ t.val) = (do
      rensure (ofBe32 a = MAGIC)
      let op ← Operation.tryFrom (ofBe32 b)
      R.ok { magic := ofBe32 a, operation := op, user := ⟨ofBe32 c⟩, resource := ⟨ofBe32 d⟩, salt := s, auth := t }) := by
  obtain ⟨a, ha⟩ := a
  obtain ⟨b, hb⟩ := b
  obtain ⟨c, hc⟩ := c
  obtain ⟨d, hd⟩ := d
  obtain ⟨s, hs⟩ := s
  obtain ⟨t, ht⟩ := t
  rw [deserialize_eq _ (by simp [ha, hb, hc, hd]; simp at hs ht; omega)]
  simp at hs ht
  simp [List.take_append, List.drop_append, ha, hb, hc, hd, hs, ht, List.drop_of_length_le, List.take_of_length_le]

theorem split_fields (buf : Bytes) (h : buf.length = 56) :
    ∃ (a b c d : Arr 4) (s : Salt) (t : Auth), buf = a.val ++ b.val ++ c.val ++ d.val ++ s.val ++ t.val := by
  refine ⟨⟨buf.take 4, by simp; omega⟩, ⟨(buf.drop 4).take 4, by simp; omega⟩, ⟨(buf.drop 8).take 4, by simp; omega⟩,
    ⟨(buf.drop 12).take 4, by simp; omega⟩, ⟨(buf.drop 16).take 8, by simp; omega⟩, ⟨buf.drop 24, by simp; omega⟩, ?_⟩
  simp only []
  have e : ∀ (k n : Nat), buf.take k ++ (buf.drop k).take n = buf.take (k + n) := by
    intro k n; rw [List.take_add]
  rw [e, e, e, e, List.take_append_drop]

theorem deserialize_ok_iff (buf : Bytes) (m : Message) :
    Message.deserialize buf = .ok m ↔
      m.magic = MAGIC ∧ buf = be 4 m.magic.toNat ++ be 4 m.operation.toU32.toNat ++ be 4 m.user.raw.toNat
        ++ be 4 m.resource.raw.toNat ++ m.salt.val ++ m.auth.val := by
  constructor
  · intro h
    by_cases hl : buf.length = 56
    · obtain ⟨a, b, c, d, s, t, rfl⟩ := split_fields buf hl
      rw [deserialize_fields] at h
      by_cases hmag : ofBe32 a = MAGIC
      · rw [rensure_true (by simp [hmag]), R.bind_ok] at h
        cases hop : Operation.tryFrom (ofBe32 b) with
        | ok op =>
          rw [hop, R.bind_ok] at h
          injection h with h
          rw [tryFrom_ok_iff] at hop
          subst h
          simp only [hmag, true_and]
          rw [(ofBe32_be a MAGIC).1 hmag, (ofBe32_be b _).1 hop, (ofBe32_be c _).1 rfl, (ofBe32_be d _).1 rfl]
        | err => simp [hop] at h
        | panic => simp [hop] at h
      · simp [rensure, hmag] at h
    · simp [Message.deserialize, rensure, hl] at h
  · rintro ⟨hm, rfl⟩
    have := deserialize_fields ⟨be 4 m.magic.toNat, by simp⟩ ⟨be 4 m.operation.toU32.toNat, by simp⟩
      ⟨be 4 m.user.raw.toNat, by simp⟩ ⟨be 4 m.resource.raw.toNat, by simp⟩ m.salt m.auth
    simp only at this
    rw [this, (ofBe32_be _ m.magic).2 rfl, (ofBe32_be _ m.operation.toU32).2 rfl, (ofBe32_be _ m.user.raw).2 rfl,
      (ofBe32_be _ m.resource.raw).2 rfl, (tryFrom_ok_iff _ m.operation).2 rfl, rensure_true (by simp [hm])]
    simp

theorem deserialize_ne_panic (buf : Bytes) : Message.deserialize buf ≠ .panic := by
  by_cases hl : buf.length = 56
  · obtain ⟨a, b, c, d, s, t, rfl⟩ := split_fields buf hl
    rw [deserialize_fields]
    by_cases hmag : ofBe32 a = MAGIC
    · have := tryFrom_ne_panic (ofBe32 b)
      cases h : Operation.tryFrom (ofBe32 b) <;> simp_all [rensure]
    · simp [rensure, hmag]
  · simp [Message.deserialize, rensure, hl]

end Letmein
