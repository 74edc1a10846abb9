import Verif.Model.FwWire
import Verif.Lemmas.Wire

/-! Helper lemmas about the firewall daemon message codec. -/

namespace Letmein

open Spec

attribute [local simp] FWMSG_SIZE ADDR_SIZE FWMSG_OFFS_OPERATION FWMSG_OFFS_PORT_TYPE FWMSG_OFFS_PORT
  FWMSG_OFFS_ADDR_TYPE FWMSG_OFFS_ADDR

theorem fw_serialize_eq (m : FwMessage) :
    m.serialize = .ok (be16 m.operation.toU16 ++ be16 m.portType.toU16 ++ be16 m.port ++ be16 m.addrType.toU16
      ++ m.addr.val) := by
  have ha := m.addr.property
  unfold FwMessage.serialize
  simp only [Arr.replicate]
  rw [show List.replicate FWMSG_SIZE (0 : UInt8) = [] ++ List.replicate FWMSG_SIZE 0 from rfl]
  rw [writeAt_prefix _ _ _ (by simp [be16_length]) _ (by rfl), R.bind_ok]
  rw [writeAt_prefix _ _ _ (by simp [be16_length]) _ (by simp [be16_length]), R.bind_ok]
  rw [writeAt_prefix _ _ _ (by simp [be16_length]) _ (by simp [be16_length]), R.bind_ok]
  rw [writeAt_prefix _ _ _ (by simp [be16_length]) _ (by simp [be16_length]), R.bind_ok]
  rw [writeAt_prefix _ _ _ (by simp [be16_length, ha]) _ (by simp [be16_length]), R.bind_ok]
  simp [be16_length, ha]

theorem deserializeU16_eq (buf : Bytes) (off : Nat) (h : off + 2 ≤ buf.length) :
    deserializeU16 buf off = .ok (ofBe16 ⟨(buf.drop off).take 2, by simp; omega⟩) := by
  have h1 : off ≤ buf.length := by omega
  have h2 : 2 ≤ buf.length - off := by omega
  simp [deserializeU16, sliceFrom, slice, toArr, h1, h2]

theorem FwOp.tryFrom_ok_iff (v : UInt16) (op : FwOp) : FwOp.tryFrom v = .ok op ↔ v = op.toU16 := by
  unfold FwOp.tryFrom
  constructor
  · intro h
    split at h
    · simp_all
    · split at h
      · simp_all
      · split at h <;> simp_all
  · rintro rfl; cases op <;> decide

theorem PortType.tryFrom_ok_iff (v : UInt16) (op : PortType) : PortType.tryFrom v = .ok op ↔ v = op.toU16 := by
  unfold PortType.tryFrom
  constructor
  · intro h
    split at h
    · simp_all
    · split at h
      · simp_all
      · split at h <;> simp_all
  · rintro rfl; cases op <;> decide

theorem AddrType.tryFrom_ok_iff (v : UInt16) (op : AddrType) : AddrType.tryFrom v = .ok op ↔ v = op.toU16 := by
  unfold AddrType.tryFrom
  constructor
  · intro h
    split at h
    · simp_all
    · split at h <;> simp_all
  · rintro rfl; cases op <;> decide

theorem FwOp.tryFrom_ne_panic (v : UInt16) : FwOp.tryFrom v ≠ .panic := by
  unfold FwOp.tryFrom; repeat' split
  all_goals simp
theorem PortType.tryFrom_ne_panic (v : UInt16) : PortType.tryFrom v ≠ .panic := by
  unfold PortType.tryFrom; repeat' split
  all_goals simp
theorem AddrType.tryFrom_ne_panic (v : UInt16) : AddrType.tryFrom v ≠ .panic := by
  unfold AddrType.tryFrom; repeat' split
  all_goals simp

theorem FwOp.tryFrom_isOk_iff (v : UInt16) : (∃ op, FwOp.tryFrom v = .ok op) ↔ v.toNat < 3 := by
  constructor
  · rintro ⟨op, h⟩; rw [FwOp.tryFrom_ok_iff] at h; subst h; cases op <;> decide
  · intro h
    have : v.toNat = 0 ∨ v.toNat = 1 ∨ v.toNat = 2 := by omega
    rcases this with h | h | h
    · exact ⟨.Nack, (FwOp.tryFrom_ok_iff _ _).2 (UInt16.toNat_inj.mp h)⟩
    · exact ⟨.Ack, (FwOp.tryFrom_ok_iff _ _).2 (UInt16.toNat_inj.mp h)⟩
    · exact ⟨.Open, (FwOp.tryFrom_ok_iff _ _).2 (UInt16.toNat_inj.mp h)⟩

theorem PortType.tryFrom_isOk_iff (v : UInt16) : (∃ op, PortType.tryFrom v = .ok op) ↔ v.toNat < 3 := by
  constructor
  · rintro ⟨op, h⟩; rw [PortType.tryFrom_ok_iff] at h; subst h; cases op <;> decide
  · intro h
    have : v.toNat = 0 ∨ v.toNat = 1 ∨ v.toNat = 2 := by omega
    rcases this with h | h | h
    · exact ⟨.Tcp, (PortType.tryFrom_ok_iff _ _).2 (UInt16.toNat_inj.mp h)⟩
    · exact ⟨.Udp, (PortType.tryFrom_ok_iff _ _).2 (UInt16.toNat_inj.mp h)⟩
    · exact ⟨.TcpUdp, (PortType.tryFrom_ok_iff _ _).2 (UInt16.toNat_inj.mp h)⟩

theorem AddrType.tryFrom_isOk_iff (v : UInt16) : (∃ op, AddrType.tryFrom v = .ok op) ↔ v.toNat < 2 := by
  constructor
  · rintro ⟨op, h⟩; rw [AddrType.tryFrom_ok_iff] at h; subst h; cases op <;> decide
  · intro h
    have : v.toNat = 0 ∨ v.toNat = 1 := by omega
    rcases this with h | h
    · exact ⟨.Ipv6, (AddrType.tryFrom_ok_iff _ _).2 (UInt16.toNat_inj.mp h)⟩
    · exact ⟨.Ipv4, (AddrType.tryFrom_ok_iff _ _).2 (UInt16.toNat_inj.mp h)⟩

theorem fw_split_fields (buf : Bytes) (h : buf.length = 24) :
    ∃ (a b c d : Arr 2) (t : Arr 16), buf = a.val ++ b.val ++ c.val ++ d.val ++ t.val := by
  refine ⟨⟨buf.take 2, by simp; omega⟩, ⟨(buf.drop 2).take 2, by simp; omega⟩, ⟨(buf.drop 4).take 2, by simp; omega⟩,
    ⟨(buf.drop 6).take 2, by simp; omega⟩, ⟨buf.drop 8, by simp; omega⟩, ?_⟩
  simp only []
  have e : ∀ (k n : Nat), buf.take k ++ (buf.drop k).take n = buf.take (k + n) := by
    intro k n; rw [List.take_add]
  rw [e, e, e, List.take_append_drop]

theorem fw_deserialize_fields (a b c d : Arr 2) (t : Arr 16) :
    FwMessage.deserialize (a.val ++ b.val ++ c.val ++ d.val ++ t.val) = (do
      let op ← FwOp.tryFrom (ofBe16 a)
      let pt ← PortType.tryFrom (ofBe16 b)
      let at_ ← AddrType.tryFrom (ofBe16 d)
      R.ok { operation := op, portType := pt, port := ofBe16 c, addrType := at_, addr := t }) := by
  obtain ⟨a, ha⟩ := a
  obtain ⟨b, hb⟩ := b
  obtain ⟨c, hc⟩ := c
  obtain ⟨d, hd⟩ := d
  obtain ⟨t, ht⟩ := t
  simp only
  have hl : (a ++ b ++ c ++ d ++ t).length = FWMSG_SIZE := by simp [ha, hb, hc, hd, ht]
  unfold FwMessage.deserialize
  rw [rensure_true (by simp [ha, hb, hc, hd, ht]), R.bind_ok]
  rw [deserializeU16_eq _ _ (by rw [hl]; simp), R.bind_ok]
  rw [deserializeU16_eq _ _ (by rw [hl]; simp), R.bind_ok]
  rw [deserializeU16_eq _ _ (by rw [hl]; simp), R.bind_ok]
  rw [deserializeU16_eq _ _ (by rw [hl]; simp), R.bind_ok]
  rw [slice_ok _ _ _ (by simp) (by rw [hl]; simp), R.bind_ok]
  have hs : ((a ++ b ++ c ++ d ++ t).take (FWMSG_OFFS_ADDR + ADDR_SIZE)).drop FWMSG_OFFS_ADDR = t := by
    rw [List.take_of_length_le (by rw [hl]; simp), List.drop_append_of_le_length (by simp [ha, hb, hc, hd]),
      List.drop_of_length_le (by simp [ha, hb, hc, hd])]
    simp
  simp only [hs]
  simp only [toArr_ok ht, R.bind_ok]
  simp [List.drop_append, ha, hb, hc, hd, List.drop_of_length_le]

theorem fw_deserialize_ok_iff (buf : Bytes) (m : FwMessage) :
    FwMessage.deserialize buf = .ok m ↔
      buf = be 2 m.operation.toU16.toNat ++ be 2 m.portType.toU16.toNat ++ be 2 m.port.toNat
        ++ be 2 m.addrType.toU16.toNat ++ m.addr.val := by
  constructor
  · intro h
    by_cases hl : buf.length = 24
    · obtain ⟨a, b, c, d, t, rfl⟩ := fw_split_fields buf hl
      rw [fw_deserialize_fields] at h
      cases h1 : FwOp.tryFrom (ofBe16 a) with
      | ok op =>
        cases h2 : PortType.tryFrom (ofBe16 b) with
        | ok pt =>
          cases h3 : AddrType.tryFrom (ofBe16 d) with
          | ok at_ =>
            simp only [h1, h2, h3, R.bind_ok] at h
            injection h with h
            subst h
            rw [FwOp.tryFrom_ok_iff] at h1
            rw [PortType.tryFrom_ok_iff] at h2
            rw [AddrType.tryFrom_ok_iff] at h3
            simp only
            rw [(ofBe16_be a _).1 h1, (ofBe16_be b _).1 h2, (ofBe16_be c _).1 rfl, (ofBe16_be d _).1 h3]
          | err => simp [h1, h2, h3] at h
          | panic => simp [h1, h2, h3] at h
        | err => simp [h1, h2] at h
        | panic => simp [h1, h2] at h
      | err => simp [h1] at h
      | panic => simp [h1] at h
    · simp [FwMessage.deserialize, rensure, hl] at h
  · rintro rfl
    have := fw_deserialize_fields ⟨be 2 m.operation.toU16.toNat, by simp⟩ ⟨be 2 m.portType.toU16.toNat, by simp⟩
      ⟨be 2 m.port.toNat, by simp⟩ ⟨be 2 m.addrType.toU16.toNat, by simp⟩ m.addr
    simp only at this
    rw [this, (ofBe16_be ⟨be 2 m.operation.toU16.toNat, by simp⟩ m.operation.toU16).2 rfl,
      (ofBe16_be ⟨be 2 m.portType.toU16.toNat, by simp⟩ m.portType.toU16).2 rfl,
      (ofBe16_be ⟨be 2 m.port.toNat, by simp⟩ m.port).2 rfl,
      (ofBe16_be ⟨be 2 m.addrType.toU16.toNat, by simp⟩ m.addrType.toU16).2 rfl, (FwOp.tryFrom_ok_iff _ m.operation).2 rfl,
      (PortType.tryFrom_ok_iff _ m.portType).2 rfl, (AddrType.tryFrom_ok_iff _ m.addrType).2 rfl]
    simp

theorem fw_deserialize_ne_panic (buf : Bytes) : FwMessage.deserialize buf ≠ .panic := by
  by_cases hl : buf.length = 24
  · obtain ⟨a, b, c, d, t, rfl⟩ := fw_split_fields buf hl
    rw [fw_deserialize_fields]
    have h1 := FwOp.tryFrom_ne_panic (ofBe16 a)
    have h2 := PortType.tryFrom_ne_panic (ofBe16 b)
    have h3 := AddrType.tryFrom_ne_panic (ofBe16 d)
    cases e1 : FwOp.tryFrom (ofBe16 a) <;> cases e2 : PortType.tryFrom (ofBe16 b) <;>
      cases e3 : AddrType.tryFrom (ofBe16 d) <;> simp_all
  · simp [FwMessage.deserialize, rensure, hl]

end Letmein
