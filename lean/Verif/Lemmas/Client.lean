import Verif.Model.Client
import Verif.Lemmas.Session

/-!
# Proof rule for the client's knock sequence
-/

set_option linter.unusedSimpArgs false

namespace Letmein

open Prog Spec

/-- The client's Knock for a salt. -/
def knockMsg (mac : MacFn) (u : UserId) (r : ResourceId) (key : Key) (s : Salt) : Message :=
  { Message.new .Knock u r s with
    auth := mac key (authText 0 u.raw.toNat r.raw.toNat s.val (List.replicate 32 0)) }

/-- The client's Response to challenge bytes `c`. -/
def responseMsg (mac : MacFn) (u : UserId) (r : ResourceId) (key : Key) (s : Salt) (c : Auth) : Message :=
  { Message.new .Response u r s with auth := mac key (authText 2 u.raw.toNat r.raw.toNat s.val c.val) }

/-- History up to and including the Knock. -/
def chist1 (mac : MacFn) (u : UserId) (r : ResourceId) (key : Key) (s : Salt) : List Ev :=
  [⟨.connect, true⟩, ⟨.rand8, some s⟩, ⟨.send (knockMsg mac u r key s), true⟩]

/-- History up to and including the Response. -/
def chist2 (mac : MacFn) (u : UserId) (r : ResourceId) (key : Key) (s : Salt) (ch : Message) (s' : Salt) : List Ev :=
  chist1 mac u r key s ++ [⟨.recv, .msg ch⟩, ⟨.rand8, some s'⟩, ⟨.send (responseMsg mac u r key s' ch.auth), true⟩]

/-- Not the expected answer. -/
def BadReply (op : Operation) (x : RecvOut) : Prop := ∀ m, x = .msg m → m.operation ≠ op

/-- One obligation per stage. -/
structure ClientObl (mac : MacFn) (u : UserId) (r : ResourceId) (key : Key) (P : List Ev → Ev → Prop)
    (F : List Ev → R Unit → Prop) : Prop where
  conn : ∀ b, P [] ⟨.connect, b⟩
  connFail : F [⟨.connect, false⟩] .err
  salt : ∀ raw, P [⟨.connect, true⟩] ⟨.rand8, raw⟩
  saltFail : ∀ raw, secureRandom 8 raw = .panic → F [⟨.connect, true⟩, ⟨.rand8, raw⟩] .panic
  knock : ∀ s b, P [⟨.connect, true⟩, ⟨.rand8, some s⟩] ⟨.send (knockMsg mac u r key s), b⟩
  knockFail : ∀ s, F [⟨.connect, true⟩, ⟨.rand8, some s⟩, ⟨.send (knockMsg mac u r key s), false⟩] .err
  recv : ∀ s x, P (chist1 mac u r key s) ⟨.recv, x⟩
  recvFail : ∀ s x, BadReply .Challenge x → F (chist1 mac u r key s ++ [⟨.recv, x⟩]) .err
  salt2 : ∀ s ch raw, ch.operation = .Challenge → P (chist1 mac u r key s ++ [⟨.recv, .msg ch⟩]) ⟨.rand8, raw⟩
  salt2Fail : ∀ s ch raw, ch.operation = .Challenge → secureRandom 8 raw = .panic →
    F (chist1 mac u r key s ++ [⟨.recv, .msg ch⟩, ⟨.rand8, raw⟩]) .panic
  resp : ∀ s ch s' b, ch.operation = .Challenge →
    P (chist1 mac u r key s ++ [⟨.recv, .msg ch⟩, ⟨.rand8, some s'⟩]) ⟨.send (responseMsg mac u r key s' ch.auth), b⟩
  respFail : ∀ s ch s', ch.operation = .Challenge →
    F (chist1 mac u r key s ++
      [⟨.recv, .msg ch⟩, ⟨.rand8, some s'⟩, ⟨.send (responseMsg mac u r key s' ch.auth), false⟩]) .err
  recv2 : ∀ s ch s' x, ch.operation = .Challenge → P (chist2 mac u r key s ch s') ⟨.recv, x⟩
  recv2Fail : ∀ s ch s' x, ch.operation = .Challenge → BadReply .ComeIn x →
    F (chist2 mac u r key s ch s' ++ [⟨.recv, x⟩]) .err
  done : ∀ s ch s' ci, secureRandom 8 (some s) = .ok s → secureRandom 8 (some s') = .ok s' →
    ch.operation = .Challenge → ci.operation = .ComeIn →
    F (chist2 mac u r key s ch s' ++ [⟨.recv, .msg ci⟩]) (.ok ())

theorem Ok_newMessage {P : List Ev → Ev → Prop} {F : List Ev → R Message → Prop} {op : Operation} {u : UserId}
    {r : ResourceId} {h : List Ev} : Ok P F (newMessage op u r) h ↔ ∀ raw, P h ⟨.rand8, raw⟩ ∧
      Ok P F (.ret (secureRandom 8 raw >>= fun salt => .ok (Message.new op u r salt))) (h ++ [⟨.rand8, raw⟩]) := Iff.rfl

theorem Ok_clientSend {P : List Ev → Ev → Prop} {F : List Ev → R Unit → Prop} {m : Message} {h : List Ev} :
    Ok P F (clientSendMsg m) h ↔ ∀ b, P h ⟨.send m, b⟩ ∧
      Ok P F (.ret (if b = true then .ok () else .err)) (h ++ [⟨.send m, b⟩]) := Iff.rfl

theorem Ok_recvSpecific {P : List Ev → Ev → Prop} {F : List Ev → R Message → Prop} {op : Operation} {h : List Ev}
    (hg : op ≠ .GoAway) (hP : ∀ x, P h ⟨.recv, x⟩) (hbad : ∀ x, BadReply op x → F (h ++ [⟨.recv, x⟩]) .err)
    (hok : ∀ m, m.operation = op → F (h ++ [⟨.recv, .msg m⟩]) (.ok m)) : Ok P F (recvSpecificMsg op) h := by
  rw [recvSpecificMsg, Ok_act]
  intro x
  refine ⟨hP x, ?_⟩
  cases x with
  | fail => exact hbad _ (by intro m h; simp at h)
  | disconnected => exact hbad _ (by intro m h; simp at h)
  | msg m =>
    have hb : m.operation ≠ op → BadReply op (.msg m) := by
      intro h m' h'; injection h' with h'; subst h'; exact h
    by_cases h1 : m.operation = .GoAway
    · simp only [h1, if_true, Ok_ret]; exact hbad _ (hb (by rw [h1]; exact Ne.symm hg))
    · by_cases h2 : m.operation = op
      · simp only [h1, if_false, h2, ne_eq, not_true, Ok_ret]
        rw [if_neg hg]
        exact hok m h2
      · simp only [h1, if_false, h2, ne_eq, not_false_eq_true, if_true, Ok_ret]; exact hbad _ (hb h2)

theorem client_ok {mac : MacFn} {u : UserId} {r : ResourceId} {key : Key} {P : List Ev → Ev → Prop}
    {F : List Ev → R Unit → Prop} (ob : ClientObl mac u r key P F) : Ok P F (knockSequence mac u r key) [] := by
  rw [knockSequence, Ok_bind, clientConnect, Ok_act]
  intro b
  refine ⟨ob.conn b, ?_⟩
  rw [Ok_ret]
  cases b with
  | false => exact ob.connFail
  | true =>
    simp only [if_true, bindF, List.nil_append]
    rw [Ok_bind, Ok_newMessage]
    intro raw
    refine ⟨ob.salt raw, ?_⟩
    rw [Ok_ret]
    cases hs : secureRandom 8 raw with
    | err => exact absurd hs (secureRandom_ne_err _ _)
    | panic => exact ob.saltFail raw hs
    | ok s =>
      have := secureRandom_ok _ _ _ hs
      subst this
      simp only [R.bind_ok, bindF]
      rw [Ok_bind, Ok_ret]
      have hk : (Message.new .Knock u r s).generateAuthNoChallenge mac key = .ok (knockMsg mac u r key s) := by
        simp only [Message.generateAuthNoChallenge, rassert, Message.new, decide_true, if_true, R.bind_ok,
          Props.authenticateNoChallenge_spec, knockMsg]
        rfl
      rw [hk]
      simp only [bindF]
      rw [Ok_bind, Ok_clientSend]
      intro b
      refine ⟨ob.knock s b, ?_⟩
      rw [Ok_ret]
      cases b with
      | false => exact ob.knockFail s
      | true =>
        simp only [if_true, bindF]
        rw [Ok_bind]
        refine Ok_recvSpecific (by decide) (ob.recv s) (fun x hx => ?_) (fun ch hch => ?_)
        · exact ob.recvFail s x hx
        simp only [bindF]
        rw [Ok_bind, Ok_ret]
        simp only [checkReply, bindF]
        rw [Ok_bind, Ok_newMessage]
        intro raw
        refine ⟨ob.salt2 s ch raw hch, ?_⟩
        rw [Ok_ret]
        cases hs' : secureRandom 8 raw with
        | err => exact absurd hs' (secureRandom_ne_err _ _)
        | panic => exact ob.salt2Fail s ch raw hch hs'
        | ok s' =>
          have := secureRandom_ok _ _ _ hs'
          subst this
          simp only [R.bind_ok, bindF]
          rw [Ok_bind, Ok_ret]
          have hk : (Message.new .Response u r s').generateAuth mac key ch = .ok (responseMsg mac u r key s' ch.auth) := by
            simp only [Message.generateAuth, rassert, Message.new, hch, decide_true, if_true, R.bind_ok,
              Props.authenticate_spec, responseMsg]
            rfl
          rw [hk]
          simp only [bindF]
          rw [Ok_bind, Ok_clientSend]
          intro b
          refine ⟨ob.resp s ch s' b hch, ?_⟩
          rw [Ok_ret]
          cases b with
          | false => exact ob.respFail s ch s' hch
          | true =>
            simp only [if_true, bindF]
            rw [Ok_bind]
            refine Ok_recvSpecific (by decide) (fun x => ob.recv2 s ch s' x hch) (fun x hx => ?_) (fun ci hci => ?_)
            · exact ob.recv2Fail s ch s' x hch hx
            · simp only [bindF]
              rw [Ok_ret]
              exact ob.done s ch s' ci hs hs' hch hci

end Letmein
