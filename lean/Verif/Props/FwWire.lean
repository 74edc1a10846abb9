import Verif.Lemmas.FwWire

/-!
# Property C06: messages between letmeind and letmeinfwd
-/

set_option linter.unusedSimpArgs false

namespace Letmein.Props

open Letmein

/-- Numbers on the wire, from the documentation comments of `/repo/letmein-fwproto/src/lib.rs:33-112`. -/
def fwOpNumber : FwOp → Nat
  | .Nack => 0 | .Ack => 1 | .Open => 2
def portTypeNumber : PortType → Nat
  | .Tcp => 0 | .Udp => 1 | .TcpUdp => 2
def addrTypeNumber : AddrType → Nat
  | .Ipv6 => 0 | .Ipv4 => 1

theorem fwOpNumber_eq (x : FwOp) : x.toU16.toNat = fwOpNumber x := by cases x <;> rfl
theorem portTypeNumber_eq (x : PortType) : x.toU16.toNat = portTypeNumber x := by cases x <;> rfl
theorem addrTypeNumber_eq (x : AddrType) : x.toU16.toNat = addrTypeNumber x := by cases x <;> rfl

/-- The byte image of a message, from the field table. -/
def fwImageOf (m : FwMessage) : Bytes :=
  Spec.fwImage (fwOpNumber m.operation) (portTypeNumber m.portType) m.port.toNat (addrTypeNumber m.addrType) m.addr.val

/-- **C06** (layout). -/
theorem C06_serialize_layout (m : FwMessage) :
    m.serialize = .ok (fwImageOf m) ∧ (fwImageOf m).length = 24 := by
  constructor
  · rw [fw_serialize_eq]
    simp only [be16_eq, fwImageOf, Spec.fwImage, fwOpNumber_eq, portTypeNumber_eq, addrTypeNumber_eq]
  · have ha : m.addr.val.length = 16 := m.addr.property
    simp [fwImageOf, Spec.fwImage, ha]

/-- **C06** (exact acceptance: the decoder returns a message exactly on its image; hence canonical). -/
theorem C06_decode_iff (buf : Bytes) (m : FwMessage) :
    FwMessage.deserialize buf = .ok m ↔ buf = fwImageOf m := by
  rw [fw_deserialize_ok_iff]
  simp only [fwImageOf, Spec.fwImage, fwOpNumber_eq, portTypeNumber_eq, addrTypeNumber_eq]

/-- **C06** (round trip). -/
theorem C06_roundtrip (m : FwMessage) : (m.serialize >>= FwMessage.deserialize) = .ok m := by
  rw [(C06_serialize_layout m).1, R.bind_ok, C06_decode_iff]

/-- **C06** (canonical). -/
theorem C06_canonical (buf : Bytes) (m : FwMessage) (h : FwMessage.deserialize buf = .ok m) :
    m.serialize = .ok buf := by
  rw [(C06_serialize_layout m).1, (C06_decode_iff _ _).1 h]

/-- **C06** (acceptance set). -/
theorem C06_accept_iff (buf : Bytes) :
    (∃ m, FwMessage.deserialize buf = .ok m) ↔ Spec.FwWellFormed buf := by
  constructor
  · rintro ⟨m, h⟩
    obtain rfl := (C06_decode_iff _ _).1 h
    refine ⟨(C06_serialize_layout m).2, ?_, ?_, ?_⟩ <;> simp only [fwImageOf, Spec.fwImage, List.append_assoc]
    · rw [List.take_append_of_le_length (by simp), List.take_of_length_le (by simp), beVal_be]
      cases m.operation <;> decide
    · rw [List.drop_append_of_le_length (by simp), List.drop_of_length_le (by simp), List.nil_append,
        List.take_append_of_le_length (by simp), List.take_of_length_le (by simp), beVal_be]
      cases m.portType <;> decide
    · simp only [← List.append_assoc]
      rw [List.append_assoc, List.drop_append_of_le_length (by simp), List.drop_of_length_le (by simp), List.nil_append,
        List.take_append_of_le_length (by simp), List.take_of_length_le (by simp), beVal_be]
      cases m.addrType <;> decide
  · rintro ⟨hl, h1, h2, h3⟩
    obtain ⟨a, b, c, d, t, rfl⟩ := fw_split_fields buf hl
    have la := a.property; have lb := b.property; have lc := c.property; have ld := d.property
    have ea : ((a.val ++ b.val ++ c.val ++ d.val ++ t.val).take 2) = a.val := by
      simp [List.take_append, la, lb, lc, ld, List.take_of_length_le]
    have eb : (((a.val ++ b.val ++ c.val ++ d.val ++ t.val).drop 2).take 2) = b.val := by
      simp [List.take_append, List.drop_append, la, lb, lc, ld, List.take_of_length_le, List.drop_of_length_le]
    have ed : (((a.val ++ b.val ++ c.val ++ d.val ++ t.val).drop 6).take 2) = d.val := by
      simp [List.take_append, List.drop_append, la, lb, lc, ld, List.take_of_length_le, List.drop_of_length_le]
    rw [ea, ← ofBe16_toNat] at h1
    rw [eb, ← ofBe16_toNat] at h2
    rw [ed, ← ofBe16_toNat] at h3
    obtain ⟨op, hop⟩ := (FwOp.tryFrom_isOk_iff _).2 h1
    obtain ⟨pt, hpt⟩ := (PortType.tryFrom_isOk_iff _).2 h2
    obtain ⟨at_, hat⟩ := (AddrType.tryFrom_isOk_iff _).2 h3
    rw [fw_deserialize_fields, hop, hpt, hat]
    exact ⟨_, rfl⟩

/-- **C06** (no panic). -/
theorem C06_no_panic (buf : Bytes) : FwMessage.deserialize buf ≠ .panic := fw_deserialize_ne_panic buf

/-- **C06** (address and port of an Open request). What letmeinfwd extracts from a received Open request is what
letmeind put in; replies carry neither. -/
theorem C06_open_roundtrip (addr : IpAddr) (pt : PortType) (port : UInt16) :
    ∃ b m, (FwMessage.newOpen addr pt port).serialize = .ok b ∧ FwMessage.deserialize b = .ok m ∧
      m.operation = .Open ∧ m.getAddr = some addr ∧ m.getPort = some (pt, port) := by
  refine ⟨_, FwMessage.newOpen addr pt port, (C06_serialize_layout _).1, (C06_decode_iff _ _).2 rfl, rfl, ?_, rfl⟩
  cases addr with
  | v4 o =>
    simp only [FwMessage.getAddr, FwMessage.newOpen, addrToOctets, octetsToAddr]
    congr 2
  | v6 o => rfl

/-- **C06** (replies). Ack and Nack are received as such and carry no address or port. -/
theorem C06_reply_roundtrip :
    (FwMessage.newAck.serialize >>= FwMessage.deserialize) = .ok FwMessage.newAck ∧
    (FwMessage.newNack.serialize >>= FwMessage.deserialize) = .ok FwMessage.newNack ∧
    FwMessage.newAck.operation = .Ack ∧ FwMessage.newNack.operation = .Nack ∧
    (∀ m : FwMessage, m.operation ≠ .Open → m.getAddr = none ∧ m.getPort = none) := by
  refine ⟨C06_roundtrip _, C06_roundtrip _, rfl, rfl, ?_⟩
  intro m h
  cases e : m.operation <;> simp_all [FwMessage.getAddr, FwMessage.getPort]

/-- **C06** (bytes of the replies). Apart from the operation all bytes are zero: letmeinfwd's answers say nothing but yes or no. -/
theorem C06_reply_bytes :
    (∃ op, FwMessage.newAck.serialize = .ok (op ++ List.replicate 22 0) ∧ op = Spec.be 2 (fwOpNumber .Ack)) ∧
    (∃ op, FwMessage.newNack.serialize = .ok (op ++ List.replicate 22 0) ∧ op = Spec.be 2 (fwOpNumber .Nack)) := by
  constructor
  · exact ⟨_, by rw [(C06_serialize_layout _).1]; rfl, rfl⟩
  · exact ⟨_, by rw [(C06_serialize_layout _).1]; rfl, rfl⟩

example : Spec.FwWellFormed ([0, 2, 0, 1, 0x98, 0x76, 0, 1] ++ List.replicate 12 0 ++ [1, 2, 3, 4]) := by
  refine ⟨rfl, ?_, ?_, ?_⟩ <;> decide
example : ¬ Spec.FwWellFormed ([0, 2, 0, 3, 0x98, 0x76, 0, 1] ++ List.replicate 16 0) := by
  rintro ⟨_, _, h, _⟩; revert h; decide
example : (FwMessage.newOpen (.v4 ⟨[1, 2, 3, 4], rfl⟩) .Udp 0x9876).serialize =
    .ok ([0, 2, 0, 1, 0x98, 0x76, 0, 1] ++ List.replicate 12 0 ++ [1, 2, 3, 4]) := by decide +kernel

end Letmein.Props
