import Verif.Props.Timing

/-!
# Property C71: what a peer without the key can find out
-/

namespace Letmein.Spec

open Letmein Prog

/-- The two configurations stand alike towards a first message: neither accepts it as the Knock of a user, or both do and neither grants the resource, or both
accept it with the same key and both grant the resource (whatever it is). -/
inductive Alike (mac : MacFn) (conf1 conf2 : Config) (m : Message) : Prop where
  | unknown (h1 : ∀ key, ¬ ValidKnock mac conf1 m key) (h2 : ∀ key, ¬ ValidKnock mac conf2 m key)
  | denied {key1 key2 : Key} (h1 : ValidKnock mac conf1 m key1) (h2 : ValidKnock mac conf2 m key2)
      (g1 : ∀ res, ¬ Granted conf1 m.user m.resource res) (g2 : ∀ res, ¬ Granted conf2 m.user m.resource res)
  | granted {key : Key} {res1 res2 : Resource} (h1 : ValidKnock mac conf1 m key) (h2 : ValidKnock mac conf2 m key)
      (g1 : Granted conf1 m.user m.resource res1) (g2 : Granted conf2 m.user m.resource res2)

end Letmein.Spec

namespace Letmein.Props

open Letmein Prog Spec

/-! ### Programs that differ only after certain events -/

/-- After the history `h` the programs behave alike until an event occurs that `Out` allows at that point. -/
inductive Same {α : Type} (Out : List Ev → Ev → Prop) : List Ev → Prog α → Prog α → Prop where
  | refl (h : List Ev) (p : Prog α) : Same Out h p p
  | act (h : List Ev) (a : Act) (k1 k2 : a.Resp → Prog α) (hk : ∀ x, ¬ Out h ⟨a, x⟩ → Same Out (h ++ [⟨a, x⟩]) (k1 x) (k2 x)) :
      Same Out h (.act a k1) (.act a k2)

variable {α β : Type} {Out : List Ev → Ev → Prop}

theorem Same.trace {h : List Ev} {p1 p2 : Prog α} (s : Same Out h p1 p2) {tr : List Ev} {o : Option (R α)}
    (hout : ∀ pre e post, tr = pre ++ e :: post → ¬ Out (h ++ pre) e) (ht : p1.Trace tr o) : p2.Trace tr o := by
  induction s generalizing tr with
  | refl h p => exact ht
  | act h a k1 k2 _ ih =>
    cases tr with
    | nil => exact ht
    | cons e tr =>
      obtain ⟨x, rfl, ht⟩ := ht
      refine ⟨x, rfl, ?_⟩
      refine ih x (by simpa using hout [] _ tr rfl) (fun pre e' post htr => ?_) ht
      have := hout (⟨a, x⟩ :: pre) e' post (by rw [htr]; rfl)
      simpa using this

/-- Programs with a common beginning. -/
theorem Same.bind {h : List Ev} {p : Prog α} {f1 f2 : α → Prog β}
    (hf : ∀ tr v, p.Trace tr (some (.ok v)) → Same Out (h ++ tr) (f1 v) (f2 v)) : Same Out h (p >>= f1) (p >>= f2) := by
  change Same Out h (Prog.bind p f1) (Prog.bind p f2)
  induction p generalizing h with
  | ret r =>
    cases r with
    | ok v => have := hf [] v ⟨rfl, .inr rfl⟩; rw [List.append_nil] at this; exact this
    | err => exact .refl _ _
    | panic => exact .refl _ _
  | act a k ih =>
    refine .act h a _ _ fun x _ => ih x fun tr v ht => ?_
    simpa using hf (⟨a, x⟩ :: tr) v ⟨x, rfl, ht⟩

/-! ### Refusals -/

theorem reject_same {conf1 conf2 : Config} (hp : conf1.controlErrorPolicy = conf2.controlErrorPolicy) (st : PState) :
    (reject conf1 st : Prog α) = reject conf2 st := by
  simp only [reject, sendGoAway, hp]

theorem recvMsg_same {conf1 conf2 : Config} (hp : conf1.controlErrorPolicy = conf2.controlErrorPolicy) (st : PState) (op : Operation) :
    recvMsg conf1 st op = recvMsg conf2 st op := by
  simp only [recvMsg, reject_same hp]

/-- A refusal ends the session. -/
theorem reject_bind (conf : Config) (st : PState) (f : α → Prog β) : ((reject conf st : Prog α) >>= f) = reject conf st := by
  change Prog.bind (reject conf st) f = reject conf st
  have h : ∀ p : Prog Unit, Prog.bind (Prog.bind p fun _ => (.ret .err : Prog α)) f = Prog.bind p fun _ => .ret .err := by
    intro p
    induction p with
    | ret r => cases r <;> rfl
    | act a k ih => simp only [Prog.bind, ih]
  exact h _

/-- `/repo/letmeind/src/protocol.rs:119-193` what the session does after its first message. -/
def sessionKnock (mac : MacFn) (conf : Config) (peer : IpAddr) (knock : Message) : Prog Unit :=
  let userId := knock.user
  let resourceId := knock.resource
  let st : PState := { userId := some userId, resourceId := some resourceId, authState := .NotAuth }
  match conf.key userId with
  | none => reject conf st
  | some key => do
    let ok ← Prog.ret (knock.checkAuthOkNoChallenge mac key)
    if !ok then reject conf st
    else
      let st := { st with authState := .BasicAuth }
      match conf.resource resourceId with
      | none => reject conf st
      | some resource =>
        if !resource.containsUser userId then reject conf st
        else if resource.port = conf.port.port then reject conf st
        else sessionChallenge mac conf peer userId resourceId key resource st

/-- The state of a session whose Knock has been read. -/
def knockState (m : Message) (a : AuthState) : PState := { userId := some m.user, resourceId := some m.resource, authState := a }

theorem session_eq (mac : MacFn) (conf : Config) (peer : IpAddr) :
    session mac conf peer = .act .recv fun x => match x with
      | .fail => .ret .err
      | .disconnected => .ret .err
      | .msg m => if m.operation = .Knock then sessionKnock mac conf peer m
          else reject conf { userId := none, resourceId := none, authState := .NotAuth } := by
  change Prog.bind (recvMsg conf _ .Knock) _ = _
  simp only [recvMsg, Prog.bind, Prog.act.injEq, heq_eq_eq, true_and]
  funext x
  cases x with
  | fail => rfl
  | disconnected => rfl
  | msg m =>
    by_cases hop : m.operation = .Knock
    · simp only [hop, ne_eq, not_true, if_false, Bool.false_eq_true, if_true, Prog.bind]
      rfl
    · simp only [hop, ne_eq, not_false_eq_true, if_true, if_false]
      exact reject_bind conf _ _

theorem sessionKnock_unknown {mac : MacFn} {conf : Config} (peer : IpAddr) {m : Message} (hop : m.operation = .Knock)
    (h : ∀ key, ¬ ValidKnock mac conf m key) : sessionKnock mac conf peer m = reject conf (knockState m .NotAuth) := by
  unfold sessionKnock
  cases hk : conf.key m.user with
  | none => simp only [hk]; rfl
  | some key =>
    have hc : m.checkAuthOkNoChallenge mac key = .ok false := by
      have hd : ∃ b, m.checkAuthOkNoChallenge mac key = .ok b := by simp [Message.checkAuthOkNoChallenge, rassert, hop]
      obtain ⟨b, hb⟩ := hd
      cases b with
      | false => exact hb
      | true => exact absurd ⟨hop, hk, ((C04_check_knock_iff mac m key).1 hb).2⟩ (h key)
    simp only [hk, hc]
    rfl

theorem sessionKnock_known {mac : MacFn} {conf : Config} (peer : IpAddr) {m : Message} {key : Key} (h : ValidKnock mac conf m key) :
    sessionKnock mac conf peer m =
      match conf.resource m.resource with
      | none => reject conf (knockState m .BasicAuth)
      | some resource =>
        if !resource.containsUser m.user then reject conf (knockState m .BasicAuth)
        else if resource.port = conf.port.port then reject conf (knockState m .BasicAuth)
        else sessionChallenge mac conf peer m.user m.resource key resource (knockState m .BasicAuth) := by
  unfold sessionKnock
  have hc : m.checkAuthOkNoChallenge mac key = .ok true := (C04_check_knock_iff mac m key).2 ⟨h.op, h.tag⟩
  simp only [h.known, hc]
  rfl

theorem sessionKnock_denied {mac : MacFn} {conf : Config} (peer : IpAddr) {m : Message} {key : Key} (h : ValidKnock mac conf m key)
    (g : ∀ res, ¬ Granted conf m.user m.resource res) : sessionKnock mac conf peer m = reject conf (knockState m .BasicAuth) := by
  rw [sessionKnock_known peer h]
  cases hr : conf.resource m.resource with
  | none => rfl
  | some res =>
    simp only
    by_cases hu : res.containsUser m.user = true
    · by_cases hp : res.port = conf.port.port
      · simp [hu, hp]
      · exact absurd ⟨hr, (containsUser_iff _ _).1 hu, hp⟩ (g res)
    · simp [hu]

theorem sessionKnock_granted {mac : MacFn} {conf : Config} (peer : IpAddr) {m : Message} {key : Key} {res : Resource}
    (h : ValidKnock mac conf m key) (g : Granted conf m.user m.resource res) :
    sessionKnock mac conf peer m = sessionChallenge mac conf peer m.user m.resource key res (knockState m .BasicAuth) := by
  rw [sessionKnock_known peer h, g.configured]
  simp [(containsUser_iff _ _).2 g.allowed, g.notControl]

/-! ### C71 -/

/-- The response that completes the authentication arrives. -/
def Completes (mac : MacFn) (key : Key) (knock : Message) (h : List Ev) (e : Ev) : Prop :=
  ∃ resp nonce, e = ⟨.recv, .msg resp⟩ ∧ ⟨.rand32, some nonce⟩ ∈ h ∧ ValidResponse mac key nonce resp ∧ received h = [knock] ∧
    resp.user = knock.user ∧ resp.resource = knock.resource

theorem newMessage_trace {op : Operation} {u : UserId} {r : ResourceId} {tr : List Ev} {v : Message}
    (h : (newMessage op u r).Trace tr (some (.ok v))) : received tr = [] ∧ v.operation = op := by
  cases tr with
  | nil => cases h
  | cons e tr =>
    obtain ⟨raw, rfl, rfl, h | h⟩ := h
    · cases h
    · refine ⟨rfl, ?_⟩
      injection h with h
      cases hs : secureRandom 8 raw with
      | ok s => rw [hs] at h; simp only [R.bind_ok, R.ok.injEq] at h; rw [h]; rfl
      | err => rw [hs] at h; simp at h
      | panic => rw [hs] at h; simp at h

theorem generateChallenge_trace {m : Message} (hm : m.operation = .Challenge) {tr : List Ev} {v : Message}
    (h : (generateChallenge m).Trace tr (some (.ok v))) : received tr = [] ∧ v.operation = .Challenge ∧ ⟨.rand32, some v.auth⟩ ∈ tr := by
  unfold generateChallenge at h
  simp only [rassert, hm, decide_true, if_true] at h
  cases tr with
  | nil => cases h
  | cons e tr =>
    obtain ⟨raw, rfl, rfl, h | h⟩ := h
    · cases h
    · injection h with h
      cases hs : secureRandom 32 raw with
      | ok s =>
        rw [hs] at h
        simp only [R.bind_ok, Message.generateChallenge, rassert, hm, decide_true, if_true, R.ok.injEq] at h
        obtain rfl := secureRandom_ok _ _ _ hs
        subst h
        exact ⟨rfl, rfl, by simp⟩
      | err => rw [hs] at h; simp at h
      | panic => rw [hs] at h; simp at h

theorem sendMsg_trace {m : Message} {tr : List Ev} {v : Unit} (h : (sendMsg m).Trace tr (some (.ok v))) : received tr = [] := by
  cases tr with
  | nil => cases h
  | cons e tr =>
    obtain ⟨ok, rfl, h⟩ := h
    have : tr = [] := by cases ok <;> exact h.1
    subst this
    rfl

theorem sessionChallenge_same {mac : MacFn} {conf1 conf2 : Config} (hp : conf1.controlErrorPolicy = conf2.controlErrorPolicy) (peer1 peer2 : IpAddr)
    (m : Message) (key : Key) (res1 res2 : Resource) {h : List Ev} (hh : received h = [m]) :
    Same (Completes mac key m) h (sessionChallenge mac conf1 peer1 m.user m.resource key res1 (knockState m .BasicAuth))
      (sessionChallenge mac conf2 peer2 m.user m.resource key res2 (knockState m .BasicAuth)) := by
  unfold sessionChallenge
  refine Same.bind fun tr1 c1 ht1 => ?_
  obtain ⟨hr1, hc1⟩ := newMessage_trace ht1
  refine Same.bind fun tr2 c2 ht2 => ?_
  obtain ⟨hr2, hc2, hn⟩ := generateChallenge_trace hc1 ht2
  refine Same.bind fun tr3 _ ht3 => ?_
  have hr3 := sendMsg_trace ht3
  rw [recvMsg_same hp]
  have hhist : received (h ++ tr1 ++ tr2 ++ tr3) = [m] := by
    simp only [received, List.filterMap_append] at *
    rw [hh, hr1, hr2, hr3]
    rfl
  have hnonce : ⟨.rand32, some c2.auth⟩ ∈ h ++ tr1 ++ tr2 ++ tr3 := by simp [hn]
  generalize h ++ tr1 ++ tr2 ++ tr3 = h' at hhist hnonce
  have hrej : ∀ f : Message → Prog Unit, Prog.bind (reject conf2 { userId := some m.user, resourceId := some m.resource, authState := .BasicAuth }) f =
      reject conf2 (knockState m .BasicAuth) := reject_bind conf2 (knockState m .BasicAuth)
  change Same _ _ (Prog.bind _ _) (Prog.bind _ _)
  rw [recvMsg]
  simp only [Prog.bind]
  refine .act _ _ _ _ fun x hx => ?_
  cases x with
  | fail => exact .refl _ _
  | disconnected => exact .refl _ _
  | msg resp =>
    simp only [knockState]
    by_cases ho : resp.operation = .Response
    rotate_left
    · simp only [ne_eq, ho, not_false_eq_true, if_true]
      rw [hrej, hrej]
      exact .refl _ _
    by_cases hu : resp.user = m.user
    rotate_left
    · simp only [ne_eq, ho, not_true, if_false, hu, not_false_eq_true, decide_true, if_true]
      rw [hrej, hrej]
      exact .refl _ _
    by_cases hr : resp.resource = m.resource
    rotate_left
    · simp only [ne_eq, ho, not_true, if_false, hu, decide_false, Bool.false_eq_true, hr, not_false_eq_true, decide_true, if_true]
      rw [hrej, hrej]
      exact .refl _ _
    simp only [ne_eq, ho, not_true, if_false, hu, decide_false, Bool.false_eq_true, hr, Prog.bind]
    have hc : resp.checkAuthOk mac key c2 = .ok false := by
      have hd : ∃ b, resp.checkAuthOk mac key c2 = .ok b := by simp [Message.checkAuthOk, rassert, ho, hc2]
      obtain ⟨b, hb⟩ := hd
      cases b with
      | false => exact hb
      | true => exact absurd ⟨resp, c2.auth, rfl, hnonce, ⟨ho, ((C04_check_response_iff mac resp c2 key).1 hb).2.2⟩, hhist, hu, hr⟩ hx
    rw [hc]
    change Same _ _ (reject conf1 _) (reject conf2 _)
    rw [reject_same hp]
    exact .refl _ _

/-- **C71**. What a peer that has not completed the authentication can observe depends on the configuration only through the error policy and through the
answers to two questions about its own first message: is it the Knock of a user, authenticated with that user's key, and is the resource granted to the user?
It does not depend on which other users, keys and resources there are, on the resource's port, protocol and users, on the control port or on anything else.
(Every run of the session under one configuration is a run under the other. Running times are not modelled.) -/
theorem C71_no_leak (mac : MacFn) (conf1 conf2 : Config) (hp : conf1.controlErrorPolicy = conf2.controlErrorPolicy) (peer1 peer2 : IpAddr)
    (tr : List Ev) (o : Option (R Unit)) (halike : ∀ m, (received tr).head? = some m → Alike mac conf1 conf2 m)
    (hauth : ∀ pre, pre <+: tr → ¬ CompleteAuth mac conf1 pre) (ht : (session mac conf1 peer1).Trace tr o) : (session mac conf2 peer2).Trace tr o := by
  rw [session_eq] at ht ⊢
  cases tr with
  | nil => exact ht
  | cons e tr =>
    obtain ⟨x, rfl, ht⟩ := ht
    refine ⟨x, rfl, ?_⟩
    cases x with
    | fail => exact ht
    | disconnected => exact ht
    | msg m =>
      simp only at ht ⊢
      by_cases hop : m.operation = .Knock
      · rw [if_pos hop] at ht ⊢
        cases halike m rfl with
        | unknown h1 h2 =>
          rw [sessionKnock_unknown peer1 hop h1, reject_same hp] at ht
          rw [sessionKnock_unknown peer2 hop h2]
          exact ht
        | denied h1 h2 g1 g2 =>
          rw [sessionKnock_denied peer1 h1 g1, reject_same hp] at ht
          rw [sessionKnock_denied peer2 h2 g2]
          exact ht
        | @granted key res1 res2 h1 h2 g1 g2 =>
          rw [sessionKnock_granted peer1 h1 g1] at ht
          rw [sessionKnock_granted peer2 h2 g2]
          refine (sessionChallenge_same hp peer1 peer2 m key res1 res2 (h := [⟨.recv, .msg m⟩]) rfl).trace ?_ ht
          rintro pre e post rfl ⟨resp, nonce, rfl, hn, hv, hrec, hu, hr⟩
          refine hauth ([⟨.recv, .msg m⟩] ++ pre ++ [⟨.recv, .msg resp⟩]) ⟨post, by simp⟩ ⟨m, resp, key, nonce, ?_, h1, ?_, hv, hu, hr⟩
          · simp only [received, List.filterMap_append] at hrec ⊢
            rw [hrec]
            rfl
          · exact List.mem_append_left _ hn
      · rw [if_neg hop] at ht ⊢
        rw [reject_same hp] at ht
        exact ht

/-- C71 (users). A peer that has no key cannot even tell whether the user exists. -/
example (mac : MacFn) (conf : Config) (peer : IpAddr) (m : Message) (h : ∀ key, ¬ ValidKnock mac conf m key) :
    Alike mac conf { conf with keys := [], resources := [] } m := .unknown h fun _ hv => by cases hv.known

/-- The example server with two users more, other resources on other ports, and another control port. -/
def otherConf : Config :=
  { exampleConf with
    keys := [(⟨1⟩, Arr.replicate 32 9), (⟨0xA423DDA7⟩, Arr.replicate 32 7), (⟨2⟩, Arr.replicate 32 8)]
    resources := [(⟨0xBC5D8077⟩, { port := 8080, tcp := false, udp := true, users := [⟨0xA423DDA7⟩] })]
    port := { port := 7777, tcp := true, udp := true } }

/-- C71: a valid Knock for a granted resource and a wrong Response; the session is the same with the other configuration. (With a valid Response it is not:
another port is opened.) -/
example :
    let script : List Ans := [.recv (.msg exampleKnock), .r8 (some goodSalt), .r32 (some goodNonce), .bool true,
      .recv (.msg { exampleResponse with salt := Arr.replicate 8 0 }), .r8 (some goodSalt), .bool true]
    (play (session toyMac exampleConf examplePeer) script).1.length = 7 ∧
    play (session toyMac exampleConf examplePeer) script = play (session toyMac otherConf examplePeer) script ∧
    (play (session toyMac exampleConf examplePeer) exampleScript).1 ≠ (play (session toyMac otherConf examplePeer) exampleScript).1 := by decide +kernel
example : Alike toyMac exampleConf otherConf exampleKnock :=
  .granted (key := Arr.replicate 32 7) (res1 := { port := 22, tcp := true, udp := false, users := [] })
    (res2 := { port := 8080, tcp := false, udp := true, users := [⟨0xA423DDA7⟩] })
    ⟨by decide +kernel, by decide +kernel, by decide +kernel⟩ ⟨by decide +kernel, by decide +kernel, by decide +kernel⟩
    ⟨by decide +kernel, by decide, by decide +kernel⟩ ⟨by decide +kernel, by decide, by decide +kernel⟩

end Letmein.Props
