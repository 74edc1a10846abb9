import Verif.Model.Base

/-!
# Messages between letmeind and letmeinfwd

Models `/repo/letmein-fwproto/src/lib.rs` (types and serialization; the stream loops are in `Verif.Model.Stream`).
-/

namespace Letmein

/-- Rust `std::net::IpAddr`: octets of an IPv4 or IPv6 address (no scope ids, as in `IpAddr`). -/
inductive IpAddr where
  | v4 (o : Arr 4)
  | v6 (o : Arr 16)
  deriving DecidableEq

/-- `/repo/letmein-fwproto/src/lib.rs:36-44` `FirewallOperation`. -/
inductive FwOp where
  | Nack | Ack | Open
  deriving DecidableEq, Repr

/-- `/repo/letmein-fwproto/src/lib.rs:62-66` `FirewallOperation as u16` (declaration order). -/
def FwOp.toU16 : FwOp → UInt16
  | .Nack => 0
  | .Ack => 1
  | .Open => 2

/-- `/repo/letmein-fwproto/src/lib.rs:46-60`. -/
def FwOp.tryFrom (value : UInt16) : R FwOp :=
  if value = FwOp.Open.toU16 then .ok .Open
  else if value = FwOp.Ack.toU16 then .ok .Ack
  else if value = FwOp.Nack.toU16 then .ok .Nack
  else .err

/-- `/repo/letmein-fwproto/src/lib.rs:71-79` `PortType`. -/
inductive PortType where
  | Tcp | Udp | TcpUdp
  deriving DecidableEq, Repr

/-- `/repo/letmein-fwproto/src/lib.rs:97-101`. -/
def PortType.toU16 : PortType → UInt16
  | .Tcp => 0
  | .Udp => 1
  | .TcpUdp => 2

/-- `/repo/letmein-fwproto/src/lib.rs:81-95`. -/
def PortType.tryFrom (value : UInt16) : R PortType :=
  if value = PortType.Tcp.toU16 then .ok .Tcp
  else if value = PortType.Udp.toU16 then .ok .Udp
  else if value = PortType.TcpUdp.toU16 then .ok .TcpUdp
  else .err

/-- `/repo/letmein-fwproto/src/lib.rs:106-112` `AddrType`. -/
inductive AddrType where
  | Ipv6 | Ipv4
  deriving DecidableEq, Repr

/-- `/repo/letmein-fwproto/src/lib.rs:128-132`. -/
def AddrType.toU16 : AddrType → UInt16
  | .Ipv6 => 0
  | .Ipv4 => 1

/-- `/repo/letmein-fwproto/src/lib.rs:114-126`. -/
def AddrType.tryFrom (value : UInt16) : R AddrType :=
  if value = AddrType.Ipv6.toU16 then .ok .Ipv6
  else if value = AddrType.Ipv4.toU16 then .ok .Ipv4
  else .err

/-- `/repo/letmein-fwproto/src/lib.rs:135`. -/
abbrev ADDR_SIZE : Nat := 16
/-- `/repo/letmein-fwproto/src/lib.rs:138`. -/
abbrev FWMSG_SIZE : Nat := 2 + 2 + 2 + 2 + ADDR_SIZE
/-- `/repo/letmein-fwproto/src/lib.rs:141`. -/
abbrev FWMSG_OFFS_OPERATION : Nat := 0
/-- `/repo/letmein-fwproto/src/lib.rs:144`. -/
abbrev FWMSG_OFFS_PORT_TYPE : Nat := 2
/-- `/repo/letmein-fwproto/src/lib.rs:147`. -/
abbrev FWMSG_OFFS_PORT : Nat := 4
/-- `/repo/letmein-fwproto/src/lib.rs:150`. -/
abbrev FWMSG_OFFS_ADDR_TYPE : Nat := 6
/-- `/repo/letmein-fwproto/src/lib.rs:153`. -/
abbrev FWMSG_OFFS_ADDR : Nat := 8

/-- `/repo/letmein-fwproto/src/lib.rs:157-163` `FirewallMessage`. -/
structure FwMessage where
  operation : FwOp
  portType : PortType
  port : UInt16
  addrType : AddrType
  addr : Arr ADDR_SIZE
  deriving DecidableEq

/-- `/repo/letmein-fwproto/src/lib.rs:166-177` `addr_to_octets`. -/
def addrToOctets : IpAddr → AddrType × Arr ADDR_SIZE
  | .v4 o => (.Ipv4, ⟨List.replicate 12 0 ++ o.val, by simp [o.property]⟩)
  | .v6 o => (.Ipv6, o)

/-- `/repo/letmein-fwproto/src/lib.rs:180-185` `octets_to_addr`. -/
def octetsToAddr (t : AddrType) (a : Arr ADDR_SIZE) : IpAddr :=
  match t with
  | .Ipv4 => .v4 ⟨a.val.drop 12, by simp [a.property, ADDR_SIZE]⟩
  | .Ipv6 => .v6 a

/-- `/repo/letmein-fwproto/src/lib.rs:189-198` `new_open`. -/
def FwMessage.newOpen (addr : IpAddr) (portType : PortType) (port : UInt16) : FwMessage :=
  { operation := .Open, portType, port, addrType := (addrToOctets addr).1, addr := (addrToOctets addr).2 }

/-- `/repo/letmein-fwproto/src/lib.rs:201-206` `new_ack` (other fields: `Default`). -/
def FwMessage.newAck : FwMessage :=
  { operation := .Ack, portType := .Tcp, port := 0, addrType := .Ipv6, addr := Arr.replicate ADDR_SIZE 0 }

/-- `/repo/letmein-fwproto/src/lib.rs:209-214` `new_nack` (other fields: `Default`). -/
def FwMessage.newNack : FwMessage :=
  { operation := .Nack, portType := .Tcp, port := 0, addrType := .Ipv6, addr := Arr.replicate ADDR_SIZE 0 }

/-- `/repo/letmein-fwproto/src/lib.rs:222-227` `port`. -/
def FwMessage.getPort (m : FwMessage) : Option (PortType × UInt16) :=
  match m.operation with
  | .Open => some (m.portType, m.port)
  | .Ack | .Nack => none

/-- `/repo/letmein-fwproto/src/lib.rs:230-235` `addr`. -/
def FwMessage.getAddr (m : FwMessage) : Option IpAddr :=
  match m.operation with
  | .Open => some (octetsToAddr m.addrType m.addr)
  | .Ack | .Nack => none

/-- `/repo/letmein-fwproto/src/lib.rs:238-255` `msg_serialize`. -/
def FwMessage.serialize (m : FwMessage) : R Bytes := do
  let buf := (Arr.replicate FWMSG_SIZE 0).val
  let buf ← writeAt buf FWMSG_OFFS_OPERATION (be16 m.operation.toU16)
  let buf ← writeAt buf FWMSG_OFFS_PORT_TYPE (be16 m.portType.toU16)
  let buf ← writeAt buf FWMSG_OFFS_PORT (be16 m.port)
  let buf ← writeAt buf FWMSG_OFFS_ADDR_TYPE (be16 m.addrType.toU16)
  let buf ← writeAt buf FWMSG_OFFS_ADDR m.addr.val
  .ok buf

/-- `/repo/letmein-fwproto/src/lib.rs:266-269` the local `deserialize_u16(&buf[off..])`. -/
def deserializeU16 (buf : Bytes) (off : Nat) : R UInt16 := do
  let s ← sliceFrom buf off
  let s ← slice s 0 2
  let a ← toArr 2 s
  .ok (ofBe16 a)

/-- `/repo/letmein-fwproto/src/lib.rs:258-284` `try_msg_deserialize`. -/
def FwMessage.deserialize (buf : Bytes) : R FwMessage := do
  rensure (buf.length = FWMSG_SIZE)
  let operation ← deserializeU16 buf FWMSG_OFFS_OPERATION
  let portType ← deserializeU16 buf FWMSG_OFFS_PORT_TYPE
  let port ← deserializeU16 buf FWMSG_OFFS_PORT
  let addrType ← deserializeU16 buf FWMSG_OFFS_ADDR_TYPE
  let addr ← slice buf FWMSG_OFFS_ADDR (FWMSG_OFFS_ADDR + ADDR_SIZE)
  let operation ← FwOp.tryFrom operation
  let portType ← PortType.tryFrom portType
  let addrType ← AddrType.tryFrom addrType
  let addr ← toArr ADDR_SIZE addr
  .ok { operation, portType, port, addrType, addr }

end Letmein
