import Verif.Lemmas.Client
import Verif.Props.Session

/-!
# Property C13: the client's knock sequence
-/

set_option linter.unusedSimpArgs false

namespace Letmein.Props

open Letmein Prog Spec

attribute [local simp] chist1 chist2 received sent recvd sentMsg knockMsg responseMsg Message.new List.filterMap_cons

/-- A Knock of user `u` for resource `r` made with `key`. -/
def IsKnockOf (mac : MacFn) (u : UserId) (r : ResourceId) (key : Key) (m : Message) : Prop :=
  m.operation = .Knock ∧ m.user = u ∧ m.resource = r ∧
  m.auth = mac key (authText 0 u.raw.toNat r.raw.toNat m.salt.val (List.replicate 32 0))

/-- A Response of user `u` for resource `r` made with `key` for the challenge bytes `c`. -/
def IsResponseOf (mac : MacFn) (u : UserId) (r : ResourceId) (key : Key) (c : Auth) (m : Message) : Prop :=
  m.operation = .Response ∧ m.user = u ∧ m.resource = r ∧
  m.auth = mac key (authText 2 u.raw.toNat r.raw.toNat m.salt.val c.val)

theorem isKnockOf_knockMsg (mac : MacFn) (u : UserId) (r : ResourceId) (key : Key) (s : Salt) :
    IsKnockOf mac u r key (knockMsg mac u r key s) := ⟨rfl, rfl, rfl, rfl⟩

theorem isResponseOf_responseMsg (mac : MacFn) (u : UserId) (r : ResourceId) (key : Key) (s : Salt) (c : Auth) :
    IsResponseOf mac u r key c (responseMsg mac u r key s c) := ⟨rfl, rfl, rfl, rfl⟩

/-- What the client may send after history `h`. -/
def ClientMaySend (mac : MacFn) (u : UserId) (r : ResourceId) (key : Key) (h : List Ev) (m : Message) : Prop :=
  (received h = [] ∧ sent h = [] ∧ IsKnockOf mac u r key m) ∨
  (∃ knock ch, IsKnockOf mac u r key knock ∧ ch.operation = .Challenge ∧ received h = [ch] ∧ sent h = [knock] ∧
    ⟨.send knock, true⟩ ∈ h ∧ IsResponseOf mac u r key ch.auth m)

/-- **C13** (what is sent). The client sends nothing but its Knock, and after a Challenge the Response to exactly
that Challenge. -/
theorem C13_sends (mac : MacFn) (u : UserId) (r : ResourceId) (key : Key) (tr : List Ev) (o : Option (R Unit))
    (ht : (knockSequence mac u r key).Trace tr o)
    (pre : List Ev) (e : Ev) (post : List Ev) (hs : tr = pre ++ e :: post) (m : Message) (he : sentMsg e = some m) :
    ClientMaySend mac u r key pre m := by
  have ob : ClientObl mac u r key (fun h e => sentMsg e = some m → ClientMaySend mac u r key h m) (fun _ _ => True) := by
    constructor <;> intros <;> try first | trivial | (exfalso; rename_i hx; (simp at hx; done))
    case knock hx =>
      simp only [sentMsg, Option.some.injEq] at hx
      subst hx
      exact .inl ⟨by simp, by simp, isKnockOf_knockMsg ..⟩
    case resp hch hx =>
      simp only [sentMsg, Option.some.injEq] at hx
      subst hx
      exact .inr ⟨_, _, isKnockOf_knockMsg .., hch, rfl, rfl, by simp, isResponseOf_responseMsg ..⟩
  exact ((client_ok ob).sound ht).1 pre e post hs he

/-- **C13** (success). Success is reported only after: Knock sent, a Challenge received, the Response to it sent, and
then a Come-In received — and these are all messages. -/
theorem C13_success (mac : MacFn) (u : UserId) (r : ResourceId) (key : Key) (tr : List Ev)
    (ht : (knockSequence mac u r key).Trace tr (some (.ok ()))) :
    ∃ knock ch resp ci, IsKnockOf mac u r key knock ∧ ch.operation = .Challenge ∧
      IsResponseOf mac u r key ch.auth resp ∧ ci.operation = .ComeIn ∧
      sent tr = [knock, resp] ∧ received tr = [ch, ci] ∧
      [⟨.send knock, true⟩, ⟨.recv, .msg ch⟩, ⟨.send resp, true⟩, ⟨.recv, .msg ci⟩].Sublist tr := by
  have ob : ClientObl mac u r key (fun _ _ => True) (fun h x => x = .ok () →
      ∃ knock ch resp ci, IsKnockOf mac u r key knock ∧ ch.operation = .Challenge ∧
      IsResponseOf mac u r key ch.auth resp ∧ ci.operation = .ComeIn ∧
      sent h = [knock, resp] ∧ received h = [ch, ci] ∧
      [⟨.send knock, true⟩, ⟨.recv, .msg ch⟩, ⟨.send resp, true⟩, ⟨.recv, .msg ci⟩].Sublist h) := by
    constructor <;> intros <;> try first | trivial | (exfalso; rename_i hx; (simp at hx; done))
    case done hch hci _ =>
      refine ⟨_, _, _, _, isKnockOf_knockMsg .., hch, isResponseOf_responseMsg .., hci, rfl, rfl, ?_⟩
      exact .cons _ (.cons _ (.cons_cons _ (.cons_cons _ (.cons _ (.cons_cons _ (.cons_cons _ .slnil))))))
  exact ((client_ok ob).sound ht).2 _ rfl rfl

/-- **C13** (failure). If the last thing received is not the message that was due, or the connection or a transmission
failed, the verdict is failure; a panic needs a failing random generator. -/
theorem C13_verdict (mac : MacFn) (u : UserId) (r : ResourceId) (key : Key) (tr : List Ev) (v : R Unit)
    (ht : (knockSequence mac u r key).Trace tr (some v)) :
    (v = .ok () ∧ ∃ ci, ci.operation = .ComeIn ∧ tr.getLast? = some ⟨.recv, .msg ci⟩ ∧ (received tr).length = 2) ∨
    (v = .err ∧ (tr = [⟨.connect, false⟩] ∨ (∃ m, tr.getLast? = some ⟨.send m, false⟩) ∨
      (∃ x, tr.getLast? = some ⟨.recv, x⟩ ∧ BadReply .Challenge x ∧ (sent tr).length = 1) ∨
      (∃ x, tr.getLast? = some ⟨.recv, x⟩ ∧ BadReply .ComeIn x ∧ (sent tr).length = 2))) ∨
    (v = .panic ∧ ∃ raw, tr.getLast? = some ⟨.rand8, raw⟩ ∧ BadRandom raw) := by
  have ob : ClientObl mac u r key (fun _ _ => True) (fun tr v =>
      (v = .ok () ∧ ∃ ci, ci.operation = .ComeIn ∧ tr.getLast? = some ⟨.recv, .msg ci⟩ ∧ (received tr).length = 2) ∨
      (v = .err ∧ (tr = [⟨.connect, false⟩] ∨ (∃ m, tr.getLast? = some ⟨.send m, false⟩) ∨
        (∃ x, tr.getLast? = some ⟨.recv, x⟩ ∧ BadReply .Challenge x ∧ (sent tr).length = 1) ∨
        (∃ x, tr.getLast? = some ⟨.recv, x⟩ ∧ BadReply .ComeIn x ∧ (sent tr).length = 2))) ∨
      (v = .panic ∧ ∃ raw, tr.getLast? = some ⟨.rand8, raw⟩ ∧ BadRandom raw)) := by
    constructor <;> intros <;> try trivial
    case connFail => exact .inr (.inl ⟨rfl, .inl rfl⟩)
    case saltFail hr => exact .inr (.inr ⟨rfl, _, rfl, (secureRandom_panic_iff 8 (by decide) _).1 hr⟩)
    case knockFail => exact .inr (.inl ⟨rfl, .inr (.inl ⟨_, rfl⟩)⟩)
    case recvFail x hx => exact .inr (.inl ⟨rfl, .inr (.inr (.inl ⟨x, by simp, hx, by simp⟩))⟩)
    case salt2Fail hr => exact .inr (.inr ⟨rfl, _, by simp, (secureRandom_panic_iff 8 (by decide) _).1 hr⟩)
    case respFail => exact .inr (.inl ⟨rfl, .inr (.inl ⟨_, rfl⟩)⟩)
    case recv2Fail x _ hx => exact .inr (.inl ⟨rfl, .inr (.inr (.inr ⟨x, by simp, hx, by simp⟩))⟩)
    case done ci _ _ _ hci => exact .inl ⟨rfl, ci, hci, by simp, by simp⟩
  exact ((client_ok ob).sound ht).2 _ rfl

/-- A complete successful client run against the challenge `goodNonce`. -/
def clientScript : List Ans :=
  [.bool true, .r8 (some goodSalt), .bool true,
   .recv (.msg { Message.new .Challenge ⟨0xA423DDA7⟩ ⟨0xBC5D8077⟩ goodSalt with auth := goodNonce }),
   .r8 (some goodSalt), .bool true, .recv (.msg (Message.new .ComeIn ⟨0xA423DDA7⟩ ⟨0xBC5D8077⟩ goodSalt))]

example : (play (knockSequence toyMac ⟨0xA423DDA7⟩ ⟨0xBC5D8077⟩ (Arr.replicate 32 7)) clientScript).2 = some (.ok ()) ∧
    sent (play (knockSequence toyMac ⟨0xA423DDA7⟩ ⟨0xBC5D8077⟩ (Arr.replicate 32 7)) clientScript).1 =
      [exampleKnock, exampleResponse] := by
  decide +kernel
/-- Go-Away in place of the Challenge is a failure, without a Response. -/
example : (play (knockSequence toyMac ⟨0xA423DDA7⟩ ⟨0xBC5D8077⟩ (Arr.replicate 32 7))
      [.bool true, .r8 (some goodSalt), .bool true, .recv (.msg (Message.new .GoAway ⟨1⟩ ⟨2⟩ goodSalt))]).2 = some .err ∧
    sent (play (knockSequence toyMac ⟨0xA423DDA7⟩ ⟨0xBC5D8077⟩ (Arr.replicate 32 7))
      [.bool true, .r8 (some goodSalt), .bool true, .recv (.msg (Message.new .GoAway ⟨1⟩ ⟨2⟩ goodSalt))]).1 =
      [exampleKnock] := by
  decide +kernel

end Letmein.Props
