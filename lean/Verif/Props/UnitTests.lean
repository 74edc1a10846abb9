import Verif.Props.Sha3
import Verif.Props.Conf
import Verif.Model.FwWire
import Verif.Model.IpParse
import Verif.Model.Float

/-!
# The unit tests of the repository, asked of the model

These are tests, not proofs of properties: each `example` puts the inputs of a unit test in `/repo` into the model and compares with what the test expects. They are
here as evidence that the model is a model of this code; a definition that was copied wrongly from the source would be found here.
-/

namespace Letmein.Props

open Letmein Prog Spec

/-! ## `/repo/letmein-fwproto/src/lib.rs:369-508` -/

/-- `check_ser_de` of the tests: a message is serialized and deserialized to itself. -/
def utFwSerDe (m : FwMessage) : Bool := decide ((m.serialize.bind FwMessage.deserialize) = .ok m)

/-- The address of the tests: `0102:0304:0506:0708:090A:0B0C:0D0E:0F10`. -/
def utAddr6 : IpAddr := .v6 ⟨[1, 2, 3, 4, 5, 6, 7, 8, 9, 10, 11, 12, 13, 14, 15, 16], rfl⟩

/-- `/repo/letmein-fwproto/src/lib.rs:380-438` `test_msg_open_v6`. -/
example : parseIpAddr "0102:0304:0506:0708:090A:0B0C:0D0E:0F10".toList = some utAddr6 ∧
    (∃ a, parseIpAddr "::1".toList = some a ∧ (FwMessage.newOpen a .Tcp 0x9876).operation = .Open ∧
      (FwMessage.newOpen a .Tcp 0x9876).getPort = some (.Tcp, 0x9876) ∧ (FwMessage.newOpen a .Tcp 0x9876).getAddr = some a ∧
      utFwSerDe (FwMessage.newOpen a .Tcp 0x9876) = true) ∧
    (FwMessage.newOpen utAddr6 .Tcp 0x9876).serialize =
      .ok [0x00, 0x02, 0x00, 0x00, 0x98, 0x76, 0x00, 0x00, 1, 2, 3, 4, 5, 6, 7, 8, 9, 10, 11, 12, 13, 14, 15, 16] ∧
    (FwMessage.newOpen utAddr6 .Udp 0x9876).serialize =
      .ok [0x00, 0x02, 0x00, 0x01, 0x98, 0x76, 0x00, 0x00, 1, 2, 3, 4, 5, 6, 7, 8, 9, 10, 11, 12, 13, 14, 15, 16] ∧
    (FwMessage.newOpen utAddr6 .TcpUdp 0x9876).serialize =
      .ok [0x00, 0x02, 0x00, 0x02, 0x98, 0x76, 0x00, 0x00, 1, 2, 3, 4, 5, 6, 7, 8, 9, 10, 11, 12, 13, 14, 15, 16] := by
  refine ⟨by decide +kernel, ⟨.v6 ⟨[0, 0, 0, 0, 0, 0, 0, 0, 0, 0, 0, 0, 0, 0, 0, 1], rfl⟩, by decide +kernel⟩, by decide +kernel⟩

/-- `/repo/letmein-fwproto/src/lib.rs:440-461` `test_msg_open_v4`. -/
example : ∃ a, parseIpAddr "1.2.3.4".toList = some a ∧ (FwMessage.newOpen a .Tcp 0x9876).operation = .Open ∧
    (FwMessage.newOpen a .Tcp 0x9876).getPort = some (.Tcp, 0x9876) ∧ (FwMessage.newOpen a .Tcp 0x9876).getAddr = some a ∧
    utFwSerDe (FwMessage.newOpen a .Tcp 0x9876) = true ∧
    (FwMessage.newOpen a .Tcp 0x9876).serialize =
      .ok [0x00, 0x02, 0x00, 0x00, 0x98, 0x76, 0x00, 0x01, 0, 0, 0, 0, 0, 0, 0, 0, 0, 0, 0, 0, 1, 2, 3, 4] :=
  ⟨.v4 ⟨[1, 2, 3, 4], rfl⟩, by decide +kernel⟩

/-- `/repo/letmein-fwproto/src/lib.rs:463-507` `test_msg_ack`, `test_msg_nack`. -/
example : FwMessage.newAck.operation = .Ack ∧ FwMessage.newAck.getPort = none ∧ FwMessage.newAck.getAddr = none ∧ utFwSerDe FwMessage.newAck = true ∧
    FwMessage.newAck.serialize = .ok ([0x00, 0x01] ++ List.replicate 22 0) ∧
    FwMessage.newNack.operation = .Nack ∧ FwMessage.newNack.getPort = none ∧ FwMessage.newNack.getAddr = none ∧ utFwSerDe FwMessage.newNack = true ∧
    FwMessage.newNack.serialize = .ok (List.replicate 24 0) := by decide +kernel

/-! ## `/repo/letmein-proto/src/lib.rs:417-712` -/

/-- `check_ser_de` of the tests. -/
def utSerDe (m : Message) : Bool := decide ((m.serialize.bind Message.deserialize) = .ok m)

/-- `/repo/letmein-proto/src/lib.rs:420-431` `test_secure_random`, `test_secure_random_too_small`: a buffer of 8 bytes is filled (unless the generator returns
a trivial value), a buffer of 7 bytes panics. -/
example : (∀ raw : Arr 8, raw.val = [1, 2, 3, 4, 5, 6, 7, 8] → secureRandom 8 (some raw) = .ok raw) ∧
    ∀ raw : Arr 7, secureRandom 7 (some raw) = .panic := by
  constructor
  · intro raw h
    have e : raw = ⟨[1, 2, 3, 4, 5, 6, 7, 8], rfl⟩ := Subtype.ext h
    rw [e]
    decide +kernel
  · intro raw
    rfl

/-- The key of `test_msg_knock`. -/
def utKnockKey : Key := Arr.replicate 32 0x9E

theorem ut_tag (key : Key) (text : Bytes) (t : Auth) (e : fipsHmac key.val text = bitsOf t.val) : hmacSha3 key text = t :=
  Subtype.ext (bitsOf_inj ((C95_hmac key text).trans e))

/-- The Knock of the test with its tag. -/
def utKnock : Message := { testKnock with auth := testTag }

theorem ut_mac (mac : MacFn) (key : Key) (m : Message) : m.authenticateNoChallenge mac key = mac key (m.macText ZERO_AUTH) := rfl

/-- The tag is the expected one. -/
theorem utKnock_tag : testKnock.authenticateNoChallenge hmacSha3 utKnockKey = testTag := by
  rw [ut_mac]
  refine ut_tag utKnockKey _ testTag ?_
  rw [C03_macText_spec]
  exact testTag_fips

theorem ut_check (mac : MacFn) (key : Key) (m : Message) (h : m.operation = .Knock) (t : Auth) (ht : m.authenticateNoChallenge mac key = t) :
    m.checkAuthOkNoChallenge mac key = .ok (decide (m.auth = t)) := by
  unfold Message.checkAuthOkNoChallenge
  rw [ht, h]
  rfl

theorem ut_generate (mac : MacFn) (key : Key) (m : Message) (h : m.operation = .Knock) (t : Auth) (ht : m.authenticateNoChallenge mac key = t) :
    m.generateAuthNoChallenge mac key = .ok { m with auth := t } := by
  unfold Message.generateAuthNoChallenge
  rw [ht, h]
  rfl

theorem ut_auth (mac : MacFn) (key : Key) (m : Message) (t : Auth) : ({ m with auth := t } : Message).authenticateNoChallenge mac key = m.authenticateNoChallenge mac key := rfl

/-- `/repo/letmein-proto/src/lib.rs:441-491` `test_msg_knock`. -/
example : (Message.new .Knock ⟨0xA423DDA7⟩ ⟨0xBC5D8077⟩ (Arr.replicate 8 0x4A)).generateAuthNoChallenge hmacSha3 utKnockKey = .ok utKnock ∧
    utKnock.operation = .Knock ∧ utKnock.user = ⟨0xA423DDA7⟩ ∧ utKnock.resource = ⟨0xBC5D8077⟩ ∧
    utKnock.checkAuthOkNoChallenge hmacSha3 utKnockKey = .ok true ∧
    utKnock.serialize = .ok ([0x3B, 0x1B, 0xB7, 0x19, 0, 0, 0, 0, 0xA4, 0x23, 0xDD, 0xA7, 0xBC, 0x5D, 0x80, 0x77, 0x4A, 0x4A, 0x4A, 0x4A, 0x4A, 0x4A, 0x4A, 0x4A] ++
      testTag.val) ∧
    utSerDe utKnock = true := by
  refine ⟨?_, rfl, rfl, rfl, ?_, by decide +kernel, by decide +kernel⟩
  · exact ut_generate hmacSha3 utKnockKey testKnock rfl testTag utKnock_tag
  · rw [ut_check hmacSha3 utKnockKey utKnock rfl testTag ((ut_auth _ _ testKnock testTag).trans utKnock_tag)]
    rfl

/-- A changed tag, as in `msg.auth[20] = 0`. -/
def utChanged (t : Auth) : Auth := ⟨t.val.set 20 0, by rw [List.length_set]; exact t.property⟩

/-- The modified messages of `/repo/letmein-proto/src/lib.rs:493-512`, as far as no other tag needs to be computed: with another operation it is the assertion that
fails (it is left out when the tests are compiled), with another tag the check. -/
example : ({ testKnock with operation := .Response } : Message).checkAuthOkNoChallenge hmacSha3 utKnockKey = .panic ∧
    ({ testKnock with auth := utChanged testTag } : Message).checkAuthOkNoChallenge hmacSha3 utKnockKey = .ok false := by
  refine ⟨rfl, ?_⟩
  rw [ut_check hmacSha3 utKnockKey { testKnock with auth := utChanged testTag } rfl testTag ((ut_auth _ _ testKnock _).trans utKnock_tag)]
  decide +kernel

/-- The key of `test_msg_challenge_response`. -/
def utResponseKey : Key := Arr.replicate 32 0x6B

/-- The Challenge of the test. -/
def utChallenge : Message :=
  { magic := MAGIC, operation := .Challenge, user := ⟨0x280D04F3⟩, resource := ⟨0xE2EE7397⟩, salt := Arr.replicate 8 0x91, auth := Arr.replicate 32 0xB8 }

/-- The tag that the test expects. -/
def utResponseTag : Auth :=
  ⟨[172, 65, 151, 51, 129, 213, 147, 73, 88, 172, 2, 136, 153, 251, 144, 161, 48, 188, 148, 235, 110, 140, 84, 128, 141, 33, 147, 29, 235, 185, 202, 42], rfl⟩

/-- The Response of the test with its tag. -/
def utResponse : Message := { testResponse with auth := utResponseTag }

theorem ut_check_response (mac : MacFn) (key : Key) (m c : Message) (h : m.operation = .Response) (hc : c.operation = .Challenge) (t : Auth)
    (ht : m.authenticate mac key c.auth = t) : m.checkAuthOk mac key c = .ok (decide (m.auth = t)) := by
  unfold Message.checkAuthOk
  rw [ht, h, hc]
  rfl

theorem ut_generate_response (mac : MacFn) (key : Key) (m c : Message) (h : m.operation = .Response) (hc : c.operation = .Challenge) (t : Auth)
    (ht : m.authenticate mac key c.auth = t) : m.generateAuth mac key c = .ok { m with auth := t } := by
  unfold Message.generateAuth
  rw [ht, h, hc]
  rfl

theorem ut_auth_response (mac : MacFn) (key : Key) (m : Message) (c t : Auth) :
    ({ m with auth := t } : Message).authenticate mac key c = m.authenticate mac key c := rfl

/-- `/repo/letmein-proto/src/lib.rs:515-595` `test_msg_challenge_response`. -/
example : (Message.new .Challenge ⟨0x280D04F3⟩ ⟨0xE2EE7397⟩ (Arr.replicate 8 0x91)).generateChallenge (Arr.replicate 32 0xB8) = .ok utChallenge ∧
    utSerDe utChallenge = true ∧
    (Message.new .Response utChallenge.user utChallenge.resource (Arr.replicate 8 0x62)).generateAuth hmacSha3 utResponseKey utChallenge = .ok utResponse ∧
    utResponse.checkAuthOk hmacSha3 utResponseKey utChallenge = .ok true ∧ utSerDe utResponse = true ∧
    ({ testResponse with operation := .Knock } : Message).checkAuthOk hmacSha3 utResponseKey utChallenge = .panic ∧
    ({ testResponse with auth := utChanged utResponseTag } : Message).checkAuthOk hmacSha3 utResponseKey utChallenge = .ok false := by
  refine ⟨by decide +kernel, by decide +kernel, ut_generate_response hmacSha3 utResponseKey testResponse utChallenge rfl rfl utResponseTag testResponse_tag, ?_, by decide +kernel,
    rfl, ?_⟩
  · rw [ut_check_response hmacSha3 utResponseKey utResponse utChallenge rfl rfl utResponseTag ((ut_auth_response _ _ testResponse _ _).trans testResponse_tag)]
    rfl
  · rw [ut_check_response hmacSha3 utResponseKey { testResponse with auth := utChanged utResponseTag } utChallenge rfl rfl utResponseTag ((ut_auth_response _ _ testResponse _ _).trans testResponse_tag)]
    decide +kernel

/-- `/repo/letmein-proto/src/lib.rs:597-640` `test_msg_comein`, `test_msg_goaway`, `test_msg_raw`. -/
example : (Message.new .ComeIn ⟨0xF90201B2⟩ ⟨0xB3E46B6C⟩ (Arr.replicate 8 0xEB)).auth = ZERO_AUTH ∧
    utSerDe (Message.new .ComeIn ⟨0xF90201B2⟩ ⟨0xB3E46B6C⟩ (Arr.replicate 8 0xEB)) = true ∧
    (Message.new .GoAway ⟨0x0F52E045⟩ ⟨0x9AF4EFA0⟩ (Arr.replicate 8 0x8C)).auth = ZERO_AUTH ∧
    utSerDe (Message.new .GoAway ⟨0x0F52E045⟩ ⟨0x9AF4EFA0⟩ (Arr.replicate 8 0x8C)) = true ∧
    (Message.new .ComeIn ⟨0xF90201B2⟩ ⟨0xB3E46B6C⟩ (Arr.replicate 8 0x9A)).serialize =
      .ok ([0x3B, 0x1B, 0xB7, 0x19, 0, 0, 0, 3, 0xF9, 0x02, 0x01, 0xB2, 0xB3, 0xE4, 0x6B, 0x6C, 0x9A, 0x9A, 0x9A, 0x9A, 0x9A, 0x9A, 0x9A, 0x9A] ++
        List.replicate 32 0) := by decide +kernel

/-- `/repo/letmein-proto/src/lib.rs:642-690` `test_msg_raw_invalid_magic_0`, `…_1`, `test_msg_raw_invalid_operation`: `unwrap` panics on an error. -/
example : Message.deserialize ([0x0B, 0x1B, 0xB7, 0x19, 0, 0, 0, 3, 0xF9, 0x02, 0x01, 0xB2, 0xB3, 0xE4, 0x6B, 0x6C] ++ List.replicate 8 0x9A ++ List.replicate 32 0) = .err ∧
    Message.deserialize ([0x3B, 0x1B, 0xB7, 0x10, 0, 0, 0, 3, 0xF9, 0x02, 0x01, 0xB2, 0xB3, 0xE4, 0x6B, 0x6C] ++ List.replicate 8 0x9A ++ List.replicate 32 0) = .err ∧
    Message.deserialize ([0x3B, 0x1B, 0xB7, 0x19, 0, 0, 0, 5, 0xF9, 0x02, 0x01, 0xB2, 0xB3, 0xE4, 0x6B, 0x6C] ++ List.replicate 8 0x9A ++ List.replicate 32 0) = .err := by
  decide +kernel

/-- `/repo/letmein-proto/src/lib.rs:692-711` `test_userid`, `test_resourceid`. -/
example : showId 0x12345678 = "12345678".toList := by decide +kernel

/-! ## `/repo/letmein-conf/src/lib.rs:656-841` -/

/-- What a getter makes of a text. -/
def utGet {α : Type} (text : String) (f : Ini → R α) : R α := (Ini.parseStr text.toList).bind f

/-- `/repo/letmein-conf/src/lib.rs:660-686` `test_general`. -/
example :
    let t := "[GENERAL]\ndebug = true\nport = 1234\ncontrol-timeout=1.5\ncontrol-error-policy= basic-auth \nseccomp = kill"
    utGet t getDebug = .ok true ∧ utGet t getPort = .ok { port := 1234, tcp := true, udp := false } ∧
    utGet t (getControlTimeout f64Secs) = .ok (1500 * 1000000) ∧ utGet t getControlErrorPolicy = .ok .BasicAuth ∧ utGet t getSeccomp = .ok .Kill := by
  decide +kernel

/-- `/repo/letmein-conf/src/lib.rs:688-736` `test_port`. -/
example : utGet "[GENERAL]\nport=1234" getPort = .ok { port := 1234, tcp := true, udp := false } ∧
    utGet "[GENERAL]\nport=1234 / TCP " getPort = .ok { port := 1234, tcp := true, udp := false } ∧
    utGet "[GENERAL]\nport=1234/UDP" getPort = .ok { port := 1234, tcp := false, udp := true } ∧
    utGet "[GENERAL]\nport=1234/ UDP , TCP" getPort = .ok { port := 1234, tcp := true, udp := true } ∧
    utGet "[GENERAL]\nport=udp, tcp / 1234" getPort = .ok { port := 1234, tcp := true, udp := true } := by
  decide +kernel

/-- `/repo/letmein-conf/src/lib.rs:738-754` `test_keys`. -/
example : utGet "[KEYS]\nABCD1234 = 998877665544332211009988776655443322110099887766554433221100CDEF\n" (fun ini => getKeys (ini.optionsIter "KEYS".toList)) =
    .ok [(⟨0xABCD1234⟩, ⟨[0x99, 0x88, 0x77, 0x66, 0x55, 0x44, 0x33, 0x22, 0x11, 0x00, 0x99, 0x88, 0x77, 0x66, 0x55, 0x44, 0x33, 0x22, 0x11, 0x00,
      0x99, 0x88, 0x77, 0x66, 0x55, 0x44, 0x33, 0x22, 0x11, 0x00, 0xCD, 0xEF], rfl⟩)] := by
  decide +kernel

/-- `/repo/letmein-conf/src/lib.rs:756-813` `test_resources`. -/
example :
    let get := fun t => utGet t (fun ini => getResources (ini.optionsIter "RESOURCES".toList))
    get "[RESOURCES]\n9876ABCD = port : 4096\n" = .ok [(⟨0x9876ABCD⟩, { port := 4096, tcp := true, udp := false, users := [] })] ∧
    get "[RESOURCES]\n9876ABCD = port : 4096 / TCP\n" = .ok [(⟨0x9876ABCD⟩, { port := 4096, tcp := true, udp := false, users := [] })] ∧
    get "[RESOURCES]\n9876ABCD = port : 4096 / udp / users: 1, 2 ,3  \n" =
      .ok [(⟨0x9876ABCD⟩, { port := 4096, tcp := false, udp := true, users := [⟨1⟩, ⟨2⟩, ⟨3⟩] })] ∧
    get "[RESOURCES]\n9876ABCD = port : 4096 / udp, tcp / users: 4\n" =
      .ok [(⟨0x9876ABCD⟩, { port := 4096, tcp := true, udp := true, users := [⟨4⟩] })] := by
  decide +kernel

/-- `/repo/letmein-conf/src/lib.rs:815-840` `test_client`, `test_nft`. -/
example :
    let t := "[NFTABLES]\nexe = mynft \nfamily = ip6\ntable = myfilter\nchain-input = myLETMEIN-INPUT\ntimeout = 50\n"
    utGet "[CLIENT]\ndefault-user = 123\n" getDefaultUser = .ok ⟨0x123⟩ ∧
    utGet t getNftExe = .ok "mynft".toList ∧ utGet t getNftFamily = .ok "ip6".toList ∧ utGet t getNftTable = .ok "myfilter".toList ∧
    utGet t getNftChainInput = .ok "myLETMEIN-INPUT".toList ∧ utGet t (getNftTimeout f64Secs) = .ok (50 * 1000000000) := by
  decide +kernel

end Letmein.Props
