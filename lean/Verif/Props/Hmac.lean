import Verif.Model.Hmac
import Verif.Props.System

/-!
# Property C87: the tags are HMAC-SHA3-256

Elsewhere the MAC is a parameter, and "or the MAC collides" is an alternative of some conclusions. Here it is the function that the code uses, and
such a collision gives two byte strings, written down explicitly, with the same SHA3-256 hash.
-/

namespace Letmein.Spec

/-- Two different byte strings with the same SHA3-256 hash. -/
def Sha3Collision (a b : Bytes) : Prop := a ≠ b ∧ sha3_256 a = sha3_256 b

/-- The string that the inner hash of HMAC is taken of: the key filled up with zeros to 136 bytes, each byte xored with 0x36, then the text. -/
def innerText (k : Key) (text : Bytes) : Bytes := k.val.map (· ^^^ 0x36) ++ List.replicate 104 0x36 ++ text

/-- The string that the outer hash is taken of. -/
def outerText (k : Key) (text : Bytes) : Bytes := k.val.map (· ^^^ 0x5C) ++ List.replicate 104 0x5C ++ (sha3_256 (innerText k text)).val

end Letmein.Spec

namespace Letmein.Props

open Letmein Prog Spec

theorem xor_right_inj (c : UInt8) : ∀ a b : UInt8, a ^^^ c = b ^^^ c → a = b := by
  intro a b h
  have : (a ^^^ c) ^^^ c = (b ^^^ c) ^^^ c := by rw [h]
  simpa [UInt8.xor_assoc] using this

theorem keyBlock_eq (k : Key) (c : UInt8) : keyBlock k c = k.val.map (· ^^^ c) ++ List.replicate 104 c := by
  simp only [keyBlock, List.map_append, List.map_replicate, UInt8.zero_xor]
  rfl

theorem hmac_outer (k : Key) (t : Bytes) : hmacSha3 k t = sha3_256 (outerText k t) := by
  simp only [hmacSha3, keyBlock_eq, outerText, innerText]

theorem map_xor_inj {c : UInt8} {a b : Bytes} (h : a.map (· ^^^ c) = b.map (· ^^^ c)) : a = b := by
  induction a generalizing b with
  | nil => cases b with
    | nil => rfl
    | cons y b => cases h
  | cons x a ih => cases b with
    | nil => cases h
    | cons y b =>
      simp only [List.map_cons, List.cons.injEq] at h
      rw [xor_right_inj c _ _ h.1, ih h.2]

theorem prefix_inj {k₁ k₂ : Key} {c : UInt8} {t₁ t₂ : Bytes}
    (h : k₁.val.map (· ^^^ c) ++ List.replicate 104 c ++ t₁ = k₂.val.map (· ^^^ c) ++ List.replicate 104 c ++ t₂) : k₁ = k₂ ∧ t₁ = t₂ := by
  have h1 := k₁.property
  have h2 := k₂.property
  obtain ⟨h3, h4⟩ := List.append_inj h (by simp [h1, h2])
  obtain ⟨h5, _⟩ := List.append_inj h3 (by simp [h1, h2])
  exact ⟨Subtype.ext (map_xor_inj h5), h4⟩

/-- **C87** (collisions). If the tags of two texts, each under some key, agree although key or text differ, then SHA3-256 collides on the two inner or on the two outer strings. -/
theorem C87_collision (k₁ k₂ : Key) (t₁ t₂ : Bytes) (h : Collision hmacSha3 k₁ t₁ k₂ t₂) :
    Sha3Collision (innerText k₁ t₁) (innerText k₂ t₂) ∨ Sha3Collision (outerText k₁ t₁) (outerText k₂ t₂) := by
  obtain ⟨hne, heq⟩ := h
  rw [hmac_outer, hmac_outer] at heq
  have hin : innerText k₁ t₁ ≠ innerText k₂ t₂ := by
    intro h
    obtain ⟨rfl, rfl⟩ := prefix_inj h
    exact hne rfl
  by_cases hi : sha3_256 (innerText k₁ t₁) = sha3_256 (innerText k₂ t₂)
  · exact .inl ⟨hin, hi⟩
  · refine .inr ⟨?_, heq⟩
    intro h
    exact hi (Subtype.ext (prefix_inj h).2)

/-- **C87** (tags bind). Two messages have the same tag only if key, operation, user, resource, salt and challenge agree, or SHA3-256 collides on strings that are made of them. -/
theorem C87_tag_binds (m₁ m₂ : Message) (k₁ k₂ : Key) (c₁ c₂ : Auth) (h : m₁.authenticate hmacSha3 k₁ c₁ = m₂.authenticate hmacSha3 k₂ c₂) :
    (k₁ = k₂ ∧ m₁.operation = m₂.operation ∧ m₁.user = m₂.user ∧ m₁.resource = m₂.resource ∧ m₁.salt = m₂.salt ∧ c₁ = c₂) ∨
    Sha3Collision (innerText k₁ (m₁.macText c₁)) (innerText k₂ (m₂.macText c₂)) ∨ Sha3Collision (outerText k₁ (m₁.macText c₁)) (outerText k₂ (m₂.macText c₂)) :=
  (C03_tag_binds hmacSha3 m₁ m₂ k₁ k₂ c₁ c₂ h).imp_right (C87_collision _ _ _ _)

/-- **C87** (whole system). As C63, with the MAC that is used: a history with a collision of the MAC contains a text tagged by a client and a text checked by the
server that give a collision of SHA3-256. -/
theorem C87_collision_in_run (who : Nat → Party) (G : List GEv) (key : Key) (h : CollisionInRun hmacSha3 who G key) :
    ∃ t₁ t₂, ClientText who G key t₁ ∧ CheckedText G t₂ ∧
      (Sha3Collision (innerText key t₁) (innerText key t₂) ∨ Sha3Collision (outerText key t₁) (outerText key t₂)) := by
  obtain ⟨t₁, t₂, h1, h2, h3, h4⟩ := h
  exact ⟨t₁, t₂, h1, h2, C87_collision key key t₁ t₂ ⟨fun h => h3 (Prod.mk.injEq .. ▸ h).2, h4⟩⟩

/-! ### Padding -/

theorem pad_length (m : Bytes) : (pad m).length = (m.length / 136 + 1) * 136 := by
  have h := Nat.div_add_mod m.length 136
  have hlt := Nat.mod_lt m.length (show 0 < 136 by decide)
  unfold pad
  simp only [RATE]
  split
  · simp; omega
  · simp; omega

theorem pad_last (m : Bytes) : ∃ a, pad m = a ++ [0x80] ∨ pad m = a ++ [0x86] := by
  unfold pad
  simp only
  split
  · exact ⟨m, .inr rfl⟩
  · exact ⟨_, .inl rfl⟩

/-- Drops zeros from the front. -/
def dropZeros : Bytes → Bytes
  | [] => []
  | x :: r => if x = 0 then dropZeros r else x :: r

theorem dropZeros_replicate (n : Nat) (r : Bytes) : dropZeros (List.replicate n 0 ++ r) = dropZeros r := by
  induction n with
  | zero => rfl
  | succ n ih => simp [List.replicate_succ, dropZeros, ih]

/-- Takes the padding off again. -/
def unpad (p : Bytes) : Bytes :=
  match p.reverse with
  | [] => []
  | x :: r => if x = 0x86 then r.reverse else match dropZeros r with
    | [] => []
    | _ :: r => r.reverse

theorem unpad_pad (m : Bytes) : unpad (pad m) = m := by
  unfold pad
  simp only
  split
  · simp [unpad]
  · simp only [unpad, List.reverse_append, List.reverse_cons, List.reverse_nil, List.nil_append, List.reverse_replicate, List.singleton_append, List.cons_append]
    rw [if_neg (by decide), dropZeros_replicate]
    simp [dropZeros]

/-- **C87** (padding). Different messages are different sequences of whole blocks: what collides in SHA3-256 collides in the sponge. -/
theorem C87_padding (a b : Bytes) : (pad a).length % 136 = 0 ∧ 0 < (pad a).length ∧ (pad a = pad b → a = b) :=
  ⟨by rw [pad_length]; omega, by rw [pad_length]; omega, fun h => by rw [← unpad_pad a, h, unpad_pad]⟩

/-! ## Concrete cases -/

/-- The hash of the empty string (FIPS 202, example values). -/
example : sha3_256 [] = ⟨[0xA7, 0xFF, 0xC6, 0xF8, 0xBF, 0x1E, 0xD7, 0x66, 0x51, 0xC1, 0x47, 0x56, 0xA0, 0x61, 0xD6, 0x62,
    0xF5, 0x80, 0xFF, 0x4D, 0xE4, 0x3B, 0x49, 0xFA, 0x82, 0xD8, 0x0A, 0x4B, 0x80, 0xF8, 0x43, 0x4A], rfl⟩ := by
  decide +kernel

/-- `/repo/letmein-proto/src/lib.rs:442-464` the Knock of the unit test. -/
def testKnock : Message :=
  { magic := MAGIC, operation := .Knock, user := ⟨0xA423DDA7⟩, resource := ⟨0xBC5D8077⟩, salt := Arr.replicate 8 0x4A, auth := ZERO_AUTH }

/-- The tag that the unit test expects. -/
example : testKnock.authenticateNoChallenge hmacSha3 (Arr.replicate 32 0x9E) =
    ⟨[99, 153, 229, 224, 255, 22, 33, 154, 94, 191, 98, 153, 196, 29, 202, 24, 154, 47, 118, 25, 189, 10, 178, 234, 95, 129, 184, 174, 249, 254, 6, 0], rfl⟩ := by
  decide +kernel

/-- `/repo/letmein-proto/src/lib.rs:515-559` the Response of the unit test. -/
def testResponse : Message :=
  { magic := MAGIC, operation := .Response, user := ⟨0x280D04F3⟩, resource := ⟨0xE2EE7397⟩, salt := Arr.replicate 8 0x62, auth := ZERO_AUTH }

/-- The tag that the unit test expects. -/
theorem testResponse_tag : testResponse.authenticate hmacSha3 (Arr.replicate 32 0x6B) (Arr.replicate 32 0xB8) =
    ⟨[172, 65, 151, 51, 129, 213, 147, 73, 88, 172, 2, 136, 153, 251, 144, 161, 48, 188, 148, 235, 110, 140, 84, 128, 141, 33, 147, 29, 235, 185, 202, 42], rfl⟩ := by
  decide +kernel

/-- The pigeonhole principle. -/
theorem pigeon (N : Nat) : ∀ f : Nat → Nat, (∀ i, i ≤ N → f i < N) → ∃ i j, i < j ∧ j ≤ N ∧ f i = f j := by
  induction N with
  | zero => intro f h; exact absurd (h 0 (Nat.le_refl 0)) (Nat.not_lt_zero _)
  | succ N ih =>
    intro f h
    by_cases hv : ∃ i, i ≤ N ∧ f i = f (N + 1)
    · obtain ⟨i, hi, he⟩ := hv
      exact ⟨i, N + 1, by omega, Nat.le_refl _, he⟩
    · obtain ⟨i, j, hij, hj, he⟩ := ih (fun i => if f i = N then f (N + 1) else f i) (by
        intro i hi
        have h1 := h i (by omega)
        have h2 := h (N + 1) (Nat.le_refl _)
        have h3 : f i ≠ f (N + 1) := fun h => hv ⟨i, hi, h⟩
        show (if f i = N then f (N + 1) else f i) < N
        split <;> omega)
      refine ⟨i, j, hij, by omega, ?_⟩
      have h3 : f i ≠ f (N + 1) := fun h => hv ⟨i, by omega, h⟩
      have h4 : f j ≠ f (N + 1) := fun h => hv ⟨j, hj, h⟩
      split at he <;> split at he <;> omega

theorem laneOf_lt (b : Bytes) : laneOf b < 256 ^ b.length := by
  induction b with
  | nil => simp [laneOf]
  | cons x b ih =>
    have := x.toNat_lt
    simp only [laneOf, List.foldr_cons, List.length_cons, Nat.pow_succ] at ih ⊢
    omega

theorem laneOf_inj {a b : Bytes} (hl : a.length = b.length) (h : laneOf a = laneOf b) : a = b := by
  induction a generalizing b with
  | nil => cases b with
    | nil => rfl
    | cons y b => cases hl
  | cons x a ih => cases b with
    | nil => cases hl
    | cons y b =>
      have hx := x.toNat_lt
      have hy := y.toNat_lt
      simp only [laneOf, List.foldr_cons] at h
      have h1 : x.toNat = y.toNat := by omega
      have h2 : laneOf a = laneOf b := by simp only [laneOf]; omega
      rw [UInt8.toNat_inj.1 h1, ih (by simpa using hl) h2]

/-- The hypothesis of `C87_collision` can be met, though nobody knows by what: there are more texts than tags. -/
example (k : Key) : ∃ t₁ t₂, Collision hmacSha3 k t₁ k t₂ := by
  obtain ⟨i, j, hij, _, he⟩ := pigeon (256 ^ 32) (fun i => laneOf (hmacSha3 k (List.replicate i 0)).val) (by
    intro i _
    have := laneOf_lt (hmacSha3 k (List.replicate i 0)).val
    rw [(hmacSha3 k (List.replicate i 0)).property] at this
    exact this)
  refine ⟨List.replicate i 0, List.replicate j 0, ?_, Subtype.ext (laneOf_inj ((hmacSha3 k _).property.trans (hmacSha3 k _).property.symm) he)⟩
  intro h
  have := congrArg List.length (Prod.mk.inj h).2
  simp at this
  omega

/-- A message of 135 bytes gets one byte of padding, one of 136 bytes a whole block. -/
example : (pad (List.replicate 135 7)).length = 136 ∧ (pad (List.replicate 136 7)).length = 272 := by decide +kernel

end Letmein.Props
