import Verif.Spec.Flow
import Verif.Props.Session
import Verif.Props.Client

/-!
# Properties C110 and C111: fresh salts, and the end of a communication
-/

set_option linter.unusedSimpArgs false

namespace Letmein.Props

open Letmein Prog Spec

attribute [local simp] hist1 hist2 hist3 hist4 received sent fwRequests recvd sentMsg fwReq isFw challengeMsg goAwayMsg
  Message.new List.filterMap_cons chist1 chist2 knockMsg responseMsg draws8 draws32 saltsSent tokensSent

/-! ## C110 -/

/-- One draw per message: a salt is drawn when all earlier ones are used up, and used for the next message. -/
def SaltStep (h : List Ev) (e : Ev) : Prop :=
  (∀ raw, e = ⟨.rand8, raw⟩ → saltsSent h = draws8 h) ∧
  (∀ m, sentMsg e = some m → saltsSent h ++ [m.salt] = draws8 h)

theorem salts_of_steps {tr : List Ev} (h : ∀ pre e post, tr = pre ++ e :: post → SaltStep pre e) :
    ∀ (n : Nat) (pre : List Ev), pre.length = n → (∃ post, tr = pre ++ post) →
      saltsSent pre = draws8 pre ∨ ∃ s, saltsSent pre ++ [s] = draws8 pre := by
  intro n
  induction n with
  | zero => intro pre hl _; rw [List.length_eq_zero_iff.1 hl]; exact .inl rfl
  | succ n ih =>
    rintro pre hl ⟨post, hp⟩
    obtain ⟨q, e, rfl⟩ : ∃ q e, pre = q ++ [e] := by
      refine ⟨pre.dropLast, pre.getLast (by intro h; rw [h] at hl; simp at hl), (List.dropLast_concat_getLast _).symm⟩
    have hq := ih q (by simpa using hl) ⟨e :: post, by simpa using hp⟩
    have he := h q e post (by simpa using hp)
    obtain ⟨h1, h2⟩ := he
    have e1 : saltsSent (q ++ [e]) = saltsSent q ++ ((sentMsg e).toList.map (·.salt)) := by
      simp only [saltsSent, sent, List.filterMap_append, List.map_append]
      cases hx : sentMsg e <;> simp [hx, -sentMsg]
    rcases e with ⟨a, x⟩
    cases a with
    | rand8 =>
      have hs := h1 x rfl
      have e2 : draws8 (q ++ [⟨.rand8, x⟩]) = draws8 q ++ (Option.toList x) := by
        simp only [draws8, List.filterMap_append]
        cases x <;> rfl
      rw [e1, e2]
      cases x with
      | none => left; simpa [sentMsg] using hs
      | some s => right; exact ⟨s, by simpa [sentMsg] using hs⟩
    | send m =>
      have hs := h2 m rfl
      have e2 : draws8 (q ++ [⟨.send m, x⟩]) = draws8 q := by simp [draws8]
      rw [e1, e2]
      left; simpa [sentMsg] using hs
    | _ =>
      have e2 : draws8 (q ++ [⟨_, x⟩]) = draws8 q := by simp [draws8]
      rw [e1, e2]
      simpa [sentMsg] using hq

/-- **C110** (server). In every session, the salts of the messages sent are the values drawn from the random generator, each
used for one message, in order; at most the last one is not used. -/
theorem C110_server (mac : MacFn) (conf : Config) (peer : IpAddr) (tr : List Ev) (o : Option (R Unit))
    (ht : (session mac conf peer).Trace tr o) : saltsSent tr = draws8 tr ∨ ∃ s, saltsSent tr ++ [s] = draws8 tr := by
  have ob : SessionObl mac conf peer SaltStep (fun _ _ => True) := by
    unfold SaltStep
    constructor <;> intros <;>
      first
        | trivial
        | (refine reject_ok ?_ ?_ ?_ ?_ ?_ <;> intros <;> simp_all; done)
        | (refine ⟨?_, ?_⟩ <;> intros <;> simp_all; done)
        | (simp_all; done)
  have h1 := ((session_ok ob).sound ht).1
  exact salts_of_steps (fun pre e post hs => by simpa using h1 pre e post hs) _ tr rfl ⟨[], by simp⟩

/-- **C110** (client). The same for the client. -/
theorem C110_client (mac : MacFn) (u : UserId) (r : ResourceId) (key : Key) (tr : List Ev) (o : Option (R Unit))
    (ht : (knockSequence mac u r key).Trace tr o) : saltsSent tr = draws8 tr ∨ ∃ s, saltsSent tr ++ [s] = draws8 tr := by
  have ob : ClientObl mac u r key SaltStep (fun _ _ => True) := by
    unfold SaltStep
    constructor <;> intros <;> first | trivial | (simp_all; done)
  have h1 := ((client_ok ob).sound ht).1
  exact salts_of_steps (fun pre e post hs => by simpa using h1 pre e post hs) _ tr rfl ⟨[], by simp⟩

/-- **C110** (challenge tokens). The token of the Challenge a session sends is the one 32 byte value it has drawn. -/
theorem C110_token (mac : MacFn) (conf : Config) (peer : IpAddr) (tr : List Ev) (o : Option (R Unit))
    (ht : (session mac conf peer).Trace tr o) (pre : List Ev) (e : Ev) (post : List Ev) (hs : tr = pre ++ e :: post) (m : Message)
    (he : sentMsg e = some m) (hm : m.operation = .Challenge) : draws32 pre = [m.auth] ∧ tokensSent pre = [] := by
  have ob : SessionObl mac conf peer
      (fun h e => ∀ m, sentMsg e = some m → m.operation = .Challenge → draws32 h = [m.auth] ∧ tokensSent h = []) (fun _ _ => True) := by
    constructor <;> intros <;>
      first
        | trivial
        | (refine reject_ok ?_ ?_ ?_ ?_ ?_ <;> intros <;> simp_all <;> (try subst_vars) <;> simp_all; done)
        | (refine ⟨?_, ?_⟩ <;> intros <;> simp_all <;> (try subst_vars) <;> simp_all; done)
        | (simp_all <;> (try subst_vars) <;> simp_all; done)
  have := ((session_ok ob).sound ht).1 pre e post hs m he hm
  simpa using this

/-- A run of the server or of the client. -/
def IsRun (mac : MacFn) (tr : List Ev) : Prop :=
  (∃ conf peer o, (session mac conf peer).Trace tr o) ∨ (∃ u r key o, (knockSequence mac u r key).Trace tr o)

/-- **C110** (no reuse). Take any number of sessions and client runs, of any servers, users and keys. If the random generator never
returns the same 8 bytes twice, no two of all the messages sent have the same salt. -/
theorem C110_never_reused (mac : MacFn) (trs : List (List Ev)) (h : ∀ tr ∈ trs, IsRun mac tr)
    (hn : (trs.flatMap draws8).Nodup) : (trs.flatMap saltsSent).Nodup := by
  refine hn.sublist ?_
  clear hn
  induction trs with
  | nil => exact List.Sublist.refl _
  | cons tr trs ih =>
    rw [List.flatMap_cons, List.flatMap_cons]
    refine List.Sublist.append ?_ (ih (fun t ht => h t (List.mem_cons_of_mem _ ht)))
    have hx : saltsSent tr = draws8 tr ∨ ∃ s, saltsSent tr ++ [s] = draws8 tr := by
      rcases h tr (List.mem_cons_self ..) with ⟨conf, peer, o, ht⟩ | ⟨u, r, key, o, ht⟩
      · exact C110_server mac conf peer tr o ht
      · exact C110_client mac u r key tr o ht
    rcases hx with hx | ⟨s, hx⟩
    · rw [hx]; exact List.Sublist.refl _
    · rw [← hx]; exact List.sublist_append_left _ _

/-- Salts other than `goodSalt`. -/
def saltNo (n : UInt8) : Salt := ⟨[n, 1, 2, 3, 4, 5, 6, 7], rfl⟩

/-- A server and a client run with four different draws and four messages. -/
example : ((play (session toyMac exampleConf examplePeer)
      [.recv (.msg exampleKnock), .r8 (some (saltNo 9)), .r32 (some goodNonce), .bool true, .recv (.msg exampleResponse),
       .bool true, .bool true, .fw (.msg FwMessage.newAck), .r8 (some (saltNo 10)), .bool true]).1,
    (play (knockSequence toyMac ⟨0xA423DDA7⟩ ⟨0xBC5D8077⟩ (Arr.replicate 32 7)) clientScript).1) |>
    fun t => saltsSent t.1 = [saltNo 9, saltNo 10] ∧ draws8 t.1 = [saltNo 9, saltNo 10] ∧ tokensSent t.1 = [goodNonce] ∧
      (saltsSent t.2).length = 2 := by
  decide +kernel

/-! ## C111 -/

/-- After a message that is not allowed, a session may only draw a salt and then send Go-Away. -/
def StopStep (ok : List Ev → Prop) (h : List Ev) (e : Ev) : Prop :=
  ¬ ok h → ((∃ raw, e = ⟨.rand8, raw⟩) ∧ ∃ m, h.getLast? = some ⟨.recv, .msg m⟩) ∨
    ((∃ m b, m.operation = .GoAway ∧ e = ⟨.send m, b⟩) ∧ ∃ raw, h.getLast? = some ⟨.rand8, raw⟩)

/-- From steps to the end of the trace. -/
theorem stops_of_steps {ok : List Ev → Prop} {tr : List Ev} (h : ∀ pre e post, tr = pre ++ e :: post → StopStep ok pre e)
    (hext : ∀ h e, ok (h ++ [e]) → (∀ x, e ≠ ⟨.recv, x⟩) → (∀ m b, e = ⟨.send m, b⟩ → m.operation = .GoAway) → ok h)
    {pre : List Ev} {m : Message} {post : List Ev} (hs : tr = pre ++ ⟨.recv, .msg m⟩ :: post) (hbad : ¬ ok (pre ++ [⟨.recv, .msg m⟩])) :
    StopsWith post := by
  cases post with
  | nil => exact .inl rfl
  | cons e1 post =>
    have h1 := h (pre ++ [⟨.recv, .msg m⟩]) e1 post (by simpa using hs) hbad
    rcases h1 with ⟨⟨raw, rfl⟩, -⟩ | ⟨-, raw, hl⟩
    rotate_left
    · rw [List.getLast?_concat] at hl; cases hl
    have hbad2 : ¬ ok (pre ++ [⟨.recv, .msg m⟩] ++ [⟨.rand8, raw⟩]) :=
      fun hc => hbad (hext _ _ hc (by intro x hx; cases hx) (by intro m b hx; cases hx))
    cases post with
    | nil => exact .inr (.inl ⟨raw, rfl⟩)
    | cons e2 post =>
      have h2 := h (pre ++ [⟨.recv, .msg m⟩] ++ [⟨.rand8, raw⟩]) e2 post (by simpa using hs) hbad2
      rcases h2 with ⟨-, m', hl⟩ | ⟨⟨ga, b, hga, rfl⟩, -⟩
      · rw [List.getLast?_concat] at hl; cases hl
      have hbad3 : ¬ ok (pre ++ [⟨.recv, .msg m⟩] ++ [⟨.rand8, raw⟩] ++ [⟨.send ga, b⟩]) :=
        fun hc => hbad2 (hext _ _ hc (by intro x hx; cases hx) (by intro m b hx; cases hx; exact hga))
      cases post with
      | nil => exact .inr (.inr ⟨raw, ga, b, hga, rfl⟩)
      | cons e3 post =>
        have h3 := h (pre ++ [⟨.recv, .msg m⟩] ++ [⟨.rand8, raw⟩] ++ [⟨.send ga, b⟩]) e3 post (by simpa using hs) hbad3
        rcases h3 with ⟨-, m', hl⟩ | ⟨-, raw', hl⟩ <;> (rw [List.getLast?_concat] at hl; cases hl)

theorem serverFlow_ext (mac : MacFn) (conf : Config) (h : List Ev) (e : Ev) (hok : ServerFlow mac conf (h ++ [e]))
    (hr : ∀ x, e ≠ ⟨.recv, x⟩) (hs : ∀ m b, e = ⟨.send m, b⟩ → m.operation = .GoAway) : ServerFlow mac conf h := by
  have e1 : received (h ++ [e]) = received h := by
    rcases e with ⟨a, x⟩
    cases a with
    | recv => exact absurd rfl (hr x)
    | _ => simp
  have e2 : tokensSent (h ++ [e]) = tokensSent h := by
    rcases e with ⟨a, x⟩
    cases a with
    | send m => have := hs m x rfl; simp [this]
    | _ => simp
  unfold ServerFlow at hok ⊢
  rwa [e1, e2] at hok

theorem flow_knock {mac : MacFn} {conf : Config} {tr : List Ev} {m : Message} {key : Key} {res : Resource}
    (hr : received tr = [m]) (hv : ValidKnock mac conf m key) (hg : Granted conf m.user m.resource res) : ServerFlow mac conf tr :=
  .inr (.inl ⟨m, key, res, hr, hv, hg⟩)

theorem flow_full {mac : MacFn} {conf : Config} {m resp : Message} {s : Salt} {n : Auth} {key : Key} {res : Resource}
    (hf : FullAuth mac conf (hist3 m s n resp) m (challengeMsg m s n) resp n key res) {ext : List Ev} (he : received ext = []) :
    ServerFlow mac conf (hist3 m s n resp ++ ext) := by
  refine .inr (.inr ⟨m, resp, key, res, n, ?_, hf.knockOk, hf.granted, ?_, hf.respOk, hf.sameUser, hf.sameResource⟩)
  · have := hf.recvOnly
    unfold received at *
    rw [List.filterMap_append, this, he]; rfl
  · simp

/-- Rejecting a message just received. -/
theorem reject_stop {mac : MacFn} {conf : Config} {st : PState} {h : List Ev} {m : Message}
    (hl : h.getLast? = some ⟨.recv, .msg m⟩) :
    Ok (StopStep (ServerFlow mac conf)) (fun _ _ => True) (reject conf st : Prog Unit) h := by
  refine reject_ok ?_ ?_ ?_ ?_ ?_ <;> intros <;> try trivial
  · intro _; exact .inl ⟨⟨_, rfl⟩, m, hl⟩
  · intro _; exact .inr ⟨⟨_, _, rfl, rfl⟩, _, List.getLast?_concat ..⟩

/-- Rejecting for another reason than the messages. -/
theorem reject_fine {mac : MacFn} {conf : Config} {st : PState} {h : List Ev}
    (hl : ∀ ext, received ext = [] → ServerFlow mac conf (h ++ ext)) :
    Ok (StopStep (ServerFlow mac conf)) (fun _ _ => True) (reject conf st : Prog Unit) h := by
  refine reject_ok ?_ ?_ ?_ ?_ ?_ <;> intros <;> try trivial
  · intro hc; exact absurd (by simpa using hl [] rfl) hc
  · intro hc; exact absurd (hl _ rfl) hc

/-- **C111** (server). As soon as the messages received are not what PROTOCOL.md allows (wrong operation, wrong or changed ids,
not authentic, not allowed), nothing follows but possibly one Go-Away: no further message is read, and letmeinfwd is not contacted. -/
theorem C111_server (mac : MacFn) (conf : Config) (peer : IpAddr) (tr : List Ev) (o : Option (R Unit))
    (ht : (session mac conf peer).Trace tr o) (pre : List Ev) (m : Message) (post : List Ev)
    (hs : tr = pre ++ ⟨.recv, .msg m⟩ :: post) (hbad : ¬ ServerFlow mac conf (pre ++ [⟨.recv, .msg m⟩])) : StopsWith post := by
  have ob : SessionObl mac conf peer (StopStep (ServerFlow mac conf)) (fun _ _ => True) := by
    constructor <;> intros <;> try trivial
    case first => intro hc; exact absurd (.inl rfl) hc
    case notKnock => exact reject_stop rfl
    case badKnock => exact reject_stop rfl
    case denied => exact reject_stop rfl
    case chSalt hv hg => exact ⟨fun hc => absurd (flow_knock (by simp) hv hg) hc, fun _ => trivial⟩
    case chNonce hv hg => exact ⟨fun hc => absurd (flow_knock (by simp) hv hg) hc, fun _ => trivial⟩
    case chSend hv hg => exact fun hc => absurd (flow_knock (by simp) hv hg) hc
    case recv2 hv hg => exact fun hc => absurd (flow_knock (by simp) hv hg) hc
    case badResponse => exact reject_stop rfl
    case fwConnect hf => exact fun hc => absurd (by simpa using flow_full hf (ext := []) rfl) hc
    case fwConnectFail hf =>
      exact reject_fine (fun ext he => by rw [List.append_assoc]; exact flow_full hf (by simpa using he))
    case fwSend hf _ => exact fun hc => absurd (flow_full hf rfl) hc
    case fwSendFail hf _ =>
      exact reject_fine (fun ext he => by rw [List.append_assoc]; exact flow_full hf (by simpa using he))
    case fwRecv hf _ => exact fun hc => absurd (flow_full hf rfl) hc
    case fwRecvFail hf _ _ =>
      exact reject_fine (fun ext he => by rw [List.append_assoc]; exact flow_full hf (by simpa using he))
    case ciSalt hf _ _ => exact ⟨fun hc => absurd (flow_full hf rfl) hc, fun _ => trivial⟩
    case ciSend hf _ _ =>
      refine ⟨fun hc => absurd ?_ hc, trivial⟩
      rw [hist4, List.append_assoc]
      exact flow_full hf rfl
  have h1 := ((session_ok ob).sound ht).1
  exact stops_of_steps (fun pre e post hs => by simpa using h1 pre e post hs) (serverFlow_ext mac conf) hs hbad

/-- **C111** (no message). A session that waits in vain for a message, or whose peer has gone, does nothing more. -/
theorem C111_silence (mac : MacFn) (conf : Config) (peer : IpAddr) (tr : List Ev) (o : Option (R Unit))
    (ht : (session mac conf peer).Trace tr o) (pre : List Ev) (x : RecvOut) (post : List Ev)
    (hs : tr = pre ++ ⟨.recv, x⟩ :: post) (hx : ∀ m, x ≠ .msg m) : post = [] := by
  have ob : SessionObl mac conf peer (fun h _ => ∀ x, h.getLast? = some ⟨.recv, x⟩ → ∃ m, x = .msg m) (fun _ _ => True) := by
    constructor <;> intros <;>
      first
        | trivial
        | (refine reject_ok ?_ ?_ ?_ ?_ ?_ <;> intros <;> simp_all <;> (try subst_vars) <;> simp_all; done)
        | (refine ⟨?_, ?_⟩ <;> intros <;> simp_all <;> (try subst_vars) <;> simp_all; done)
        | (simp_all <;> (try subst_vars) <;> simp_all; done)
  cases post with
  | nil => rfl
  | cons e post =>
    have := ((session_ok ob).sound ht).1 (pre ++ [⟨.recv, x⟩]) e post (by simpa using hs) x (by simp)
    obtain ⟨m, hm⟩ := this
    exact absurd hm (hx m)

/-- The full claim for the client: it stops at the first message that PROTOCOL.md does not allow. -/
def C111_client_statement : Prop :=
  ∀ (mac : MacFn) (u : UserId) (r : ResourceId) (key : Key) (tr : List Ev) (o : Option (R Unit)),
    (knockSequence mac u r key).Trace tr o → ∀ (pre : List Ev) (m : Message) (post : List Ev),
    tr = pre ++ ⟨.recv, .msg m⟩ :: post → ¬ ClientFlow true u r (pre ++ [⟨.recv, .msg m⟩]) → post = [] ∧ o ≠ some (.ok ())

/-- A Challenge for another user and another resource. -/
def strangeChallenge : Message := { Message.new .Challenge ⟨1⟩ ⟨2⟩ goodSalt with auth := goodNonce }

/-- What the client is answered. -/
def strangeScript : List Ans :=
  [.bool true, .r8 (some goodSalt), .bool true, .recv (.msg strangeChallenge), .r8 (some goodSalt), .bool true,
   .recv (.msg (Message.new .ComeIn ⟨3⟩ ⟨4⟩ goodSalt))]

/-- **C111** (the claim for the client is false). A Challenge with the ids of another user and resource is answered, and a Come-In
with other ids is success (`check_reply` only warns). -/
theorem C111_client_negation : ¬ C111_client_statement := by
  intro h
  have ht := play_trace (knockSequence toyMac ⟨0xA423DDA7⟩ ⟨0xBC5D8077⟩ (Arr.replicate 32 7)) strangeScript
  have hd : (play (knockSequence toyMac ⟨0xA423DDA7⟩ ⟨0xBC5D8077⟩ (Arr.replicate 32 7)) strangeScript).2 = some (.ok ()) := by
    decide +kernel
  have hsplit : (play (knockSequence toyMac ⟨0xA423DDA7⟩ ⟨0xBC5D8077⟩ (Arr.replicate 32 7)) strangeScript).1 =
      (play (knockSequence toyMac ⟨0xA423DDA7⟩ ⟨0xBC5D8077⟩ (Arr.replicate 32 7)) strangeScript).1.take 3 ++
      ⟨.recv, RecvOut.msg strangeChallenge⟩ ::
      (play (knockSequence toyMac ⟨0xA423DDA7⟩ ⟨0xBC5D8077⟩ (Arr.replicate 32 7)) strangeScript).1.drop 4 := by decide +kernel
  have hr : received ((play (knockSequence toyMac ⟨0xA423DDA7⟩ ⟨0xBC5D8077⟩ (Arr.replicate 32 7)) strangeScript).1.take 3 ++
      [⟨.recv, RecvOut.msg strangeChallenge⟩]) = [strangeChallenge] := by decide +kernel
  refine (h _ _ _ _ _ _ ht _ _ _ hsplit ?_).2 hd
  rintro (hc | ⟨ch, hc, -, hi⟩ | ⟨ch, ci, hc, -⟩)
  · rw [hr] at hc; cases hc
  · rw [hr] at hc
    cases hc
    exact absurd (hi rfl).1 (by decide)
  · rw [hr] at hc; cases hc

/-- **C111** (client, disregarding ids). The client stops, without success and without sending anything, at the first message whose
operation is not the one that is due, and when no message comes. Missing from the full claim: it does not stop at a message with
other ids. -/
theorem C111_client_partial (mac : MacFn) (u : UserId) (r : ResourceId) (key : Key) (tr : List Ev) (o : Option (R Unit))
    (ht : (knockSequence mac u r key).Trace tr o) (pre : List Ev) (x : RecvOut) (post : List Ev)
    (hs : tr = pre ++ ⟨.recv, x⟩ :: post) (hbad : (∀ m, x ≠ .msg m) ∨ ¬ ClientFlow false u r (pre ++ [⟨.recv, x⟩])) :
    post = [] ∧ o ≠ some (.ok ()) := by
  have ob : ClientObl mac u r key
      (fun h _ => ∀ q x, h = q ++ [⟨.recv, x⟩] → (∃ m, x = .msg m) ∧ ClientFlow false u r h)
      (fun h v => v = .ok () → ∃ q m, h = q ++ [⟨.recv, .msg m⟩] ∧ ClientFlow false u r h) := by
    constructor <;> intros
    case conn => rename_i q x hq; simp at hq
    case connFail => rename_i hv; cases hv
    case salt => rename_i q x hq; have := congrArg List.getLast? hq; simp at this
    case saltFail => rename_i hv; cases hv
    case knock => rename_i q x hq; have := congrArg List.getLast? hq; simp at this
    case knockFail => rename_i hv; cases hv
    case recv => rename_i q x hq; have := congrArg List.getLast? hq; simp at this
    case recvFail => rename_i hv; cases hv
    case salt2 =>
      rename_i s ch raw hop q x hq
      have := congrArg List.getLast? hq
      rw [List.getLast?_concat, List.getLast?_concat] at this
      cases this
      exact ⟨⟨ch, rfl⟩, .inr (.inl ⟨ch, by simp, hop, by simp⟩)⟩
    case salt2Fail => rename_i hv; cases hv
    case resp => rename_i q x hq; have := congrArg List.getLast? hq; simp at this
    case respFail => rename_i hv; cases hv
    case recv2 => rename_i q x hq; have := congrArg List.getLast? hq; simp at this
    case recv2Fail => rename_i hv; cases hv
    case done =>
      rename_i s ch s' ci _ _ hch hci _
      exact ⟨_, ci, rfl, .inr (.inr ⟨ch, ci, by simp, hch, hci, by simp⟩)⟩
  have h1 := (client_ok ob).sound ht
  have h2 : post = [] := by
    cases post with
    | nil => rfl
    | cons e post =>
      have := h1.1 (pre ++ [⟨.recv, x⟩]) e post (by simpa using hs) pre x (by simp)
      rcases hbad with hb | hb
      · obtain ⟨m, hm⟩ := this.1; exact absurd hm (hb m)
      · exact absurd (by simpa using this.2) hb
  refine ⟨h2, ?_⟩
  intro ho
  subst h2
  obtain ⟨q, m, hq, hf⟩ := h1.2 _ ho rfl
  rw [List.nil_append, hs] at hq hf
  have := congrArg List.getLast? hq
  rw [List.getLast?_concat, List.getLast?_concat] at this
  cases this
  rcases hbad with hb | hb
  · exact hb m rfl
  · exact hb hf

/-- A session that gets a Response for another resource: the hypotheses of C111 hold, and one Go-Away follows. -/
example : let t := (play (session toyMac exampleConf examplePeer)
      [.recv (.msg exampleKnock), .r8 (some goodSalt), .r32 (some goodNonce), .bool true,
       .recv (.msg { exampleResponse with resource := ⟨1⟩ }), .r8 (some goodSalt), .bool true]).1
    (t.length = 7 ∧ t[4]? = some ⟨.recv, RecvOut.msg { exampleResponse with resource := ⟨1⟩ }⟩ ∧
      (sent t).map (·.operation) = [.Challenge, .GoAway]) := by
  decide +kernel

/-- … and it is indeed not allowed. -/
example (tr : List Ev) (h : received tr = [exampleKnock, { exampleResponse with resource := ⟨1⟩ }]) :
    ¬ ServerFlow toyMac exampleConf tr := by
  rintro (hc | ⟨k, _, _, hc, -⟩ | ⟨k, resp, _, _, _, hc, -, -, -, -, -, he⟩)
  · rw [h] at hc; cases hc
  · rw [h] at hc; cases hc
  · rw [h] at hc
    cases hc
    exact absurd he (by decide +kernel)

/-- A client that gets a Come-In instead of a Challenge stops. -/
example : (play (knockSequence toyMac ⟨0xA423DDA7⟩ ⟨0xBC5D8077⟩ (Arr.replicate 32 7))
      [.bool true, .r8 (some goodSalt), .bool true, .recv (.msg (Message.new .ComeIn ⟨0xA423DDA7⟩ ⟨0xBC5D8077⟩ goodSalt)),
       .r8 (some goodSalt)]).2 = some .err := by
  decide +kernel

end Letmein.Props
