import Verif.Model.Reuse
import Verif.Props.NoLeak
import Verif.Props.Punctual
import Verif.Props.Crowd

/-!
# Property C134: an interrupted knock can be repeated at once
-/

namespace Letmein.Props

open Letmein Prog Spec

/-! ### Programs that only refuse -/

/-- Whatever happens, the program does nothing but ask for random numbers and send messages other than Come-In. -/
def Mute {α : Type} : Prog α → Prop
  | .ret _ => True
  | .act a k => (a = .rand8 ∨ ∃ m, a = .send m ∧ m.operation ≠ .ComeIn) ∧ ∀ x, Mute (k x)

/-- At most `n` actions until the end. -/
def AtMostActs {α : Type} : Prog α → Nat → Prop
  | .ret _, _ => True
  | .act _ k, n => ∃ m, n = m + 1 ∧ ∀ x, AtMostActs (k x) m

theorem atMost_bind {α β : Type} {p : Prog α} {f : α → Prog β} {n m : Nat} (h : AtMostActs p n) (hf : ∀ a, AtMostActs (f a) m) : AtMostActs (p >>= f) (m + n) := by
  induction p generalizing n with
  | ret r =>
    cases r with
    | err => trivial
    | panic => trivial
    | ok a =>
      have mono : ∀ (q : Prog β) (x y : Nat), AtMostActs q x → AtMostActs q (x + y) := by
        intro q
        induction q with
        | ret r => exact fun _ _ _ => trivial
        | act a k ih =>
          rintro x y ⟨z, rfl, hz⟩
          exact ⟨z + y, by omega, fun r => ih r z y (hz r)⟩
      exact mono _ m n (hf a)
  | act a k ih =>
    obtain ⟨z, rfl, hz⟩ := h
    exact ⟨m + z, by omega, fun x => ih x (hz x)⟩

theorem atMost_ignore {α : Type} {p : Prog α} {n : Nat} (h : AtMostActs p n) : AtMostActs p.ignore n := by
  induction p generalizing n with
  | ret r => cases r <;> trivial
  | act a k ih =>
    obtain ⟨z, rfl, hz⟩ := h
    exact ⟨z, rfl, fun x => ih x (hz x)⟩

theorem mute_bind {α β : Type} {p : Prog α} {f : α → Prog β} (h : Mute p) (hf : ∀ a, Mute (f a)) : Mute (p >>= f) := by
  induction p with
  | ret r => cases r <;> first | exact hf _ | trivial
  | act a k ih => exact ⟨h.1, fun x => ih x (h.2 x)⟩

theorem mute_ignore {α : Type} {p : Prog α} (h : Mute p) : Mute p.ignore := by
  induction p with
  | ret r => cases r <;> trivial
  | act a k ih => exact ⟨h.1, fun x => ih x (h.2 x)⟩

theorem mute_reject {α : Type} (conf : Config) (st : PState) : Mute (reject conf st : Prog α) := by
  unfold reject
  refine mute_bind (mute_ignore ?_) fun _ => trivial
  unfold sendGoAway
  split
  · unfold newMessage
    refine ⟨.inl rfl, fun x => ?_⟩
    cases x with
    | none => trivial
    | some s =>
      cases hs : secureRandom 8 (some s) with
      | ok s' =>
        show Mute (Prog.bind (.ret ((secureRandom 8 (some s)).bind _)) _)
        rw [hs]
        exact ⟨.inr ⟨_, rfl, by simp [Message.new]⟩, fun _ => trivial⟩
      | err =>
        show Mute (Prog.bind (.ret ((secureRandom 8 (some s)).bind _)) _)
        rw [hs]
        trivial
      | panic =>
        show Mute (Prog.bind (.ret ((secureRandom 8 (some s)).bind _)) _)
        rw [hs]
        trivial
  · trivial

theorem atMost_newMessage (op : Operation) (u : UserId) (r : ResourceId) : AtMostActs (newMessage op u r) 1 := by
  unfold newMessage
  exact ⟨0, rfl, fun _ => trivial⟩

theorem atMost_reject {α : Type} (conf : Config) (st : PState) : AtMostActs (reject conf st : Prog α) 2 := by
  unfold reject
  refine atMost_bind (m := 0) (n := 2) (atMost_ignore ?_) fun _ => (show AtMostActs (Prog.ret .err) 0 from trivial)
  unfold sendGoAway
  split
  · refine atMost_bind (m := 1) (atMost_newMessage ..) fun _ => ?_
    exact ⟨0, rfl, fun x => show AtMostActs (Prog.ret _) 0 from trivial⟩
  · trivial

theorem atMost_recvSpecific (op : Operation) : AtMostActs (recvSpecificMsg op) 1 := by
  unfold recvSpecificMsg
  refine ⟨0, rfl, fun x => ?_⟩
  cases x with
  | fail => trivial
  | disconnected => trivial
  | msg m =>
    dsimp only
    split
    · trivial
    · split <;> trivial

theorem atMost_knock (mac : MacFn) (u : UserId) (r : ResourceId) (key : Key) : AtMostActs (knockSequence mac u r key) 7 := by
  unfold knockSequence
  refine atMost_bind (n := 1) (m := 6) (by unfold clientConnect; exact ⟨0, rfl, fun x => trivial⟩) fun _ => ?_
  refine atMost_bind (n := 1) (m := 5) (atMost_newMessage ..) fun _ => ?_
  refine atMost_bind (n := 0) (m := 5) trivial fun _ => ?_
  refine atMost_bind (n := 1) (m := 4) (by unfold clientSendMsg; exact ⟨0, rfl, fun x => trivial⟩) fun _ => ?_
  refine atMost_bind (n := 1) (m := 3) (atMost_recvSpecific _) fun _ => ?_
  refine atMost_bind (n := 0) (m := 3) trivial fun _ => ?_
  refine atMost_bind (n := 1) (m := 2) (atMost_newMessage ..) fun _ => ?_
  refine atMost_bind (n := 0) (m := 2) trivial fun _ => ?_
  refine atMost_bind (n := 1) (m := 1) (by unfold clientSendMsg; exact ⟨0, rfl, fun x => trivial⟩) fun _ => ?_
  exact atMost_bind (n := 1) (m := 0) (atMost_recvSpecific _) fun _ => trivial

/-! ### The session: what is not a Response is refused -/

/-- Nothing is received. -/
def NoRecv {α : Type} : Prog α → Prop
  | .ret _ => True
  | .act a k => a ≠ .recv ∧ ∀ x, NoRecv (k x)

/-- If the next message received is not a Response, the program only refuses from then on, with two actions at most. -/
def HeedsResponse {α : Type} : Prog α → Prop
  | .ret _ => True
  | .act a k => (∀ k' : RecvOut → Prog α, (Prog.act a k : Prog α) = .act .recv k' → ∀ m, m.operation ≠ .Response → Mute (k' (.msg m)) ∧ AtMostActs (k' (.msg m)) 2) ∧ (a ≠ .recv → ∀ x, HeedsResponse (k x))

theorem mute_guarded {α : Type} {p : Prog α} (h : Mute p) : HeedsResponse p := by
  induction p with
  | ret r => trivial
  | act a k ih =>
    refine ⟨fun k' hk m _ => ?_, fun _ x => ih x (h.2 x)⟩
    injection hk with ha _
    rcases h.1 with h' | ⟨_, h', _⟩ <;> rw [h'] at ha <;> cases ha

theorem guarded_bind {α β : Type} {p : Prog α} {f : α → Prog β} (h : NoRecv p) (hf : ∀ a, HeedsResponse (f a)) : HeedsResponse (p >>= f) := by
  induction p with
  | ret r => cases r <;> first | exact hf _ | trivial
  | act a k ih =>
    refine ⟨fun k' hk => ?_, fun _ x => ih x (h.2 x)⟩
    injection hk with ha _
    exact absurd ha h.1

theorem guarded_session (mac : MacFn) (conf : Config) (peer : IpAddr) : ∃ k, session mac conf peer = .act .recv k ∧ ∀ x, HeedsResponse (k x) := by
  unfold session recvMsg
  refine ⟨_, rfl, fun x => ?_⟩
  cases x with
  | fail => trivial
  | disconnected => trivial
  | msg m =>
    dsimp only
    by_cases h1 : m.operation ≠ .Knock
    · rw [if_pos h1]
      show HeedsResponse ((reject conf _ : Prog Message) >>= _)
      rw [reject_bind]
      exact mute_guarded (mute_reject conf _)
    · rw [if_neg h1]
      simp only [Bool.false_eq_true, if_false]
      show HeedsResponse (match conf.key m.user with | none => _ | some key => _)
      cases conf.key m.user with
      | none => exact mute_guarded (mute_reject conf _)
      | some key =>
        refine guarded_bind (p := Prog.ret _) trivial fun ok => ?_
        split
        · exact mute_guarded (mute_reject conf _)
        · cases conf.resource m.resource with
          | none => exact mute_guarded (mute_reject conf _)
          | some res =>
            dsimp only
            split
            · exact mute_guarded (mute_reject conf _)
            · split
              · exact mute_guarded (mute_reject conf _)
              · unfold sessionChallenge
                refine guarded_bind (by unfold newMessage; exact ⟨nofun, fun _ => trivial⟩) fun ch => ?_
                refine guarded_bind ?_ fun ch => ?_
                · unfold generateChallenge rassert
                  split
                  · exact ⟨nofun, fun _ => trivial⟩
                  · trivial
                refine guarded_bind (by unfold sendMsg; exact ⟨nofun, fun _ => trivial⟩) fun _ => ?_
                unfold recvMsg
                refine ⟨fun k' hk m' hm' => ?_, fun h => absurd rfl h⟩
                injection hk with _ hk
                subst hk
                dsimp only
                rw [if_pos hm']
                show Mute ((reject conf _ : Prog Message) >>= _) ∧ AtMostActs ((reject conf _ : Prog Message) >>= _) 2
                rw [reject_bind]
                exact ⟨mute_reject conf _, atMost_reject conf _⟩

/-! ### The client: Knock first, success only after Come-In -/

/-- Success only after having received a Come-In. -/
def NeedsComeIn {α : Type} : Prog α → Prop
  | .ret r => ∀ a, r ≠ .ok a
  | .act a k => ∀ x : a.Resp, (∀ m : Message, (⟨a, x⟩ : Prog.Ev) = ⟨.recv, .msg m⟩ → m.operation ≠ .ComeIn) → NeedsComeIn (k x)

theorem needs_bind {α β : Type} (p : Prog α) {f : α → Prog β} (hf : ∀ a, NeedsComeIn (f a)) : NeedsComeIn (p >>= f) := by
  induction p with
  | ret r => cases r <;> first | exact hf _ | exact nofun
  | act a k ih => exact fun x _ => ih x

theorem needs_knock (mac : MacFn) (u : UserId) (r : ResourceId) (key : Key) : NeedsComeIn (knockSequence mac u r key) := by
  unfold knockSequence
  iterate 9 refine needs_bind _ fun _ => ?_
  unfold recvSpecificMsg
  intro x hx
  cases x with
  | fail => exact nofun
  | disconnected => exact nofun
  | msg m =>
    have := hx m rfl
    show NeedsComeIn (Prog.bind (if m.operation = .GoAway then .ret .err else if m.operation ≠ .ComeIn then .ret .err else .ret (.ok m)) _)
    by_cases hg : m.operation = .GoAway
    · rw [if_pos hg]; exact nofun
    · rw [if_neg hg, if_pos this]; exact nofun

/-- On the way to sending a Knock, and nothing is in the way. -/
def FirstKnock {α : Type} : Prog α → Prop
  | .ret _ => False
  | .act .connect k => FirstKnock (k true)
  | .act .rand8 k => ∀ s, secureRandom 8 (some s) = .ok s → FirstKnock (k (some s))
  | .act (.send m) _ => m.operation = .Knock
  | .act _ _ => False

theorem firstKnock_ret {α β : Type} {r : R α} {a : α} {f : α → Prog β} (hr : r = .ok a) (h : FirstKnock (f a)) : FirstKnock ((Prog.ret r).bind f) := by
  subst hr
  exact h

theorem firstKnock_knock (mac : MacFn) (u : UserId) (r : ResourceId) (key : Key) : FirstKnock (knockSequence mac u r key) := by
  unfold knockSequence clientConnect
  intro s hs
  have hk : (Message.new .Knock u r s).generateAuthNoChallenge mac key = .ok (knockMsg mac u r key s) := by
    simp only [Message.generateAuthNoChallenge, rassert, Message.new, decide_true, if_true, R.bind_ok,
      Props.authenticateNoChallenge_spec, knockMsg]
    rfl
  refine firstKnock_ret (a := Message.new .Knock u r s) (by rw [hs]; rfl) (firstKnock_ret hk ?_)
  exact rfl

/-! ### The interrupted knock -/

theorem exchange_session {fconf : Config} {W W' : Whole} (hs : WStep fconf W .exchange W') :
    W'.server = W.server ∨ ∃ (a : Act) (k : a.Resp → Prog Unit) (x : a.Resp), W.server = .act a k ∧ W'.server = k x ∧ W'.client = W.client := by
  cases hs <;> first | exact .inl rfl | exact .inr ⟨_, _, _, rfl, rfl, rfl⟩

/-- The session after `ownSteps evs` steps. -/
theorem guarded_inv {mac : MacFn} {sconf fconf : Config} {peer : IpAddr} {u : UserId} {r : ResourceId} {key : Key} {res : Resource} {pt : PortType}
    (h0 : SP0 mac peer u r key res pt (session mac sconf peer)) {n : NftNames} (hn : ChainOf fconf n)
    (hc : CanOpen fconf n peer res.port) {k0 : Kernel} {startOk : Bool} {sI : FwdState} (hstart : fwdStart fconf k0 startOk = some sI)
    {before : List FwdOp} (hb : (fwdRun fconf sI before).2.phase ≠ .stopped) {evs : List WEv} {W : Whole}
    (hrun : WSteps fconf (Whole.init mac sconf peer u r key (fwdRun fconf sI before).2) evs W)
    (hfair : Fair fconf n sI (before ++ wholeOps evs)) (hterm : ∀ ok, FwdOp.terminate ok ∉ wholeOps evs) :
    (ownSteps evs ≤ 3 → ∃ k, W.server = .act .recv k ∧ ∀ x, HeedsResponse (k x)) ∧ (4 ≤ ownSteps evs → ownSteps evs ≤ 10 → HeedsResponse W.server) := by
  generalize hi : Whole.init mac sconf peer u r key (fwdRun fconf sI before).2 = W0 at hrun
  induction hrun with
  | refl =>
    subst hi
    exact ⟨fun _ => guarded_session mac sconf peer, fun h => by simp [ownSteps] at h⟩
  | @step W1 W2 evs e hrun hs ih =>
    have hrun2 : WSteps fconf (Whole.init mac sconf peer u r key (fwdRun fconf sI before).2) (evs ++ [e]) W2 := by rw [hi]; exact .step hrun hs
    have hat2 := (whole_inv h0 hn hc hstart hb hrun2 hfair hterm).1
    rw [wholeOps_append] at hfair hterm
    rw [← List.append_assoc] at hfair
    obtain ⟨hfair1, _⟩ := fair_append hfair
    have hterm1 : ∀ ok, FwdOp.terminate ok ∉ wholeOps evs := fun ok h => hterm ok (by simp [h])
    have hat := (whole_inv h0 hn hc hstart hb (hi ▸ hrun) hfair1 hterm1).1
    obtain ⟨i1, i2⟩ := ih hfair1 hterm1
    rw [ownSteps_append] at hat2 ⊢
    generalize ownSteps evs = i at *
    cases e with
    | other op =>
      cases hs
      exact ⟨i1, i2⟩
    | serve m now =>
      have h13 := (wAt_serve mac peer u r key res pt hat hs).1
      simp only [WEv.own, if_true]
      exact ⟨fun h => by omega, fun _ h => by omega⟩
    | exchange =>
      simp only [WEv.own, if_true] at hat2 ⊢
      have h13 := exchange_not13 hat hs
      rcases exchange_session hs with hsv | ⟨a, k, x, e1, e2, e3⟩
      · obtain ⟨m1, m2⟩ := client_moved hat hat2 hsv h13
        rw [hsv]
        refine ⟨fun h => i1 (by omega), fun h h' => i2 ?_ (by omega)⟩
        by_cases h3 : i = 3
        · subst h3; cases m1
        · omega
      · obtain ⟨m1, m2⟩ := session_moved hat hat2 e3 h13
        rw [e2]
        refine ⟨fun h => ?_, fun h h' => ?_⟩
        · exfalso
          unfold sIdx at m1
          rw [if_pos h] at m1
          omega
        · by_cases h3 : i = 3
          · subst h3
            obtain ⟨k', hk', hg⟩ := i1 (by omega)
            rw [e1] at hk'
            injection hk' with ha hk'
            subst ha
            cases hk'
            exact hg x
          · have hg := i2 (by omega) (by omega)
            rw [e1] at hg
            refine hg.2 (fun ha => ?_) x
            subst ha
            have hkind := (wAt_kinds hat).2
            rw [e1] at hkind
            unfold sIdx at m1
            have : i = 4 ∨ i = 5 ∨ i = 6 := by
              by_cases h7 : i + 1 ≤ 7
              · omega
              · rw [if_neg (by omega), if_neg h7, if_pos (by omega)] at m1
                omega
            rcases this with rfl | rfl | rfl <;> simp [sKind] at hkind

/-- What stays true with the new client; at most `b` steps are left. -/
structure Blocked (b : Nat) (V : Whole) : Prop where
  needs : NeedsComeIn V.client
  noComeIn : ∀ m ∈ V.s2c, m.operation ≠ .ComeIn
  noRequest : V.toFw = []
  session : ∃ c, AtMostActs V.client c ∧
    ((c + 3 ≤ b ∧ ∃ k, V.server = .act .recv k ∧ (∀ m : Message, m.operation ≠ .Response → Mute (k (.msg m)) ∧ AtMostActs (k (.msg m)) 2) ∧
      ((V.c2s = [] ∧ FirstKnock V.client) ∨ ∃ m rest, V.c2s = m :: rest ∧ m.operation = .Knock)) ∨
    ∃ s, c + s ≤ b ∧ Mute V.server ∧ AtMostActs V.server s)

theorem blocked_other {b : Nat} {V : Whole} (h : Blocked b V) (f : FwdState) : Blocked b { V with fwd := f } :=
  ⟨h.needs, h.noComeIn, h.noRequest, h.session⟩

/-- A step of the client that leaves the session waiting or refusing. -/
theorem blocked_client {b : Nat} {a : Act} {k : a.Resp → Prog Unit} {s : Prog Unit} {q1 q2 q1' q2' : List Message} {x y : List FwMessage} {f : FwdState} (r : a.Resp)
    (h : Blocked b ⟨.act a k, s, q1, q2, x, y, f⟩) (hr : ∀ m : Message, (⟨a, r⟩ : Prog.Ev) = ⟨.recv, .msg m⟩ → m.operation ≠ .ComeIn) (hq2 : ∀ m ∈ q2', m.operation ≠ .ComeIn)
    (hq1 : (q1 = [] ∧ FirstKnock (.act a k) → (q1' = [] ∧ FirstKnock (k r)) ∨ ∃ m rest, q1' = m :: rest ∧ m.operation = .Knock) ∧
      ((∃ m rest, q1 = m :: rest ∧ m.operation = .Knock) → ∃ m rest, q1' = m :: rest ∧ m.operation = .Knock)) :
    1 ≤ b ∧ Blocked (b - 1) ⟨k r, s, q1', q2', x, y, f⟩ := by
  obtain ⟨h1, h2, h3, c, ⟨c', rfl, hc⟩, h4⟩ := h
  rcases h4 with ⟨hb, k', hk', hm, hq⟩ | ⟨n, hb, hm, hn⟩
  · refine ⟨by omega, h1 r hr, hq2, h3, c', hc r, .inl ⟨by omega, k', hk', hm, ?_⟩⟩
    rcases hq with hq | hq
    · exact hq1.1 hq
    · exact .inr (hq1.2 hq)
  · exact ⟨by omega, h1 r hr, hq2, h3, c', hc r, .inr ⟨n, by omega, hm, hn⟩⟩

/-- A step of the refusing session. -/
theorem blocked_session {b : Nat} {a : Act} {k : a.Resp → Prog Unit} {c : Prog Unit} {q1 q2 q2' : List Message} {x y : List FwMessage} {f : FwdState} (r : a.Resp) (ha : a ≠ .recv)
    (h : Blocked b ⟨c, .act a k, q1, q2, x, y, f⟩) (hq2 : ∀ m ∈ q2', m ∈ q2 ∨ a = .send m) :
    (a = .rand8 ∨ ∃ m, a = .send m) ∧ 1 ≤ b ∧ Blocked (b - 1) ⟨c, k r, q1, q2', x, y, f⟩ := by
  obtain ⟨h1, h2, h3, n, hc, h4⟩ := h
  rcases h4 with ⟨_, k', hk', _⟩ | ⟨m, hb, hm, m', rfl, hm'⟩
  · injection hk' with h' _
    exact absurd h' ha
  · refine ⟨hm.1.imp id fun ⟨m, h, _⟩ => ⟨m, h⟩, by omega, h1, fun x hx => ?_, h3, n, hc, .inr ⟨m', by omega, hm.2 r, hm' r⟩⟩
    rcases hq2 x hx with hx | hx
    · exact h2 x hx
    · rcases hm.1 with h' | ⟨y, h', h''⟩
      · rw [h'] at hx; cases hx
      · rw [h'] at hx
        injection hx with hx
        rw [← hx]
        exact h''

theorem blocked_step {fconf : Config} {b : Nat} {V V' : Whole} {e : WEv} (h : Blocked b V) (hs : WStep fconf V e V') :
    (∃ b', b = b' + (if e.own then 1 else 0) ∧ Blocked b' V') ∧ ∀ m now, e ≠ .serve m now := by
  have fin : ∀ {V'}, 1 ≤ b ∧ Blocked (b - 1) V' → (∃ b', b = b' + (if WEv.exchange.own then 1 else 0) ∧ Blocked b' V') ∧ ∀ m now, WEv.exchange ≠ .serve m now :=
    fun h => ⟨⟨b - 1, by simp only [WEv.own, if_true]; omega, h.2⟩, nofun⟩
  cases hs with
  | cConnect => exact fin (blocked_client _ h nofun h.noComeIn ⟨fun h => .inl ⟨h.1, h.2⟩, id⟩)
  | cRand salt hr => exact fin (blocked_client (some salt) h nofun h.noComeIn ⟨fun h => .inl ⟨h.1, h.2 salt hr⟩, id⟩)
  | @cSend m k s a b x y f =>
    refine fin (blocked_client true h nofun h.noComeIn ⟨fun h => .inr ⟨m, [], by rw [h.1]; rfl, h.2⟩, ?_⟩)
    rintro ⟨m', rest, rfl, hm⟩
    exact ⟨m', rest ++ [m], rfl, hm⟩
  | @cRecv m k s a b x y f =>
    refine fin (blocked_client (a := .recv) (q2' := b) (.msg m) h (fun m' hm' => ?_) (fun m' hm' => h.noComeIn m' (by simp [hm'])) ⟨fun h => h.2.elim, id⟩)
    injection hm' with _ hm'
    cases hm'
    exact h.noComeIn m (by simp)
  | sRand8 salt hr => exact fin (blocked_session (a := .rand8) (some salt) nofun h fun m hm => .inl hm).2
  | sRand32 salt hr => exact fin (blocked_session (a := .rand32) (some salt) nofun h fun m hm => .inl hm).2
  | @sSend c m k a b x y f =>
    refine fin (blocked_session (a := .send m) true nofun h fun m' hm' => ?_).2
    rcases List.mem_append.1 hm' with hm' | hm'
    · exact .inl hm'
    · rw [List.mem_singleton.1 hm']; exact .inr rfl
  | @sRecv c m k a q x y f =>
    obtain ⟨h1, h2, h3, n, hc, h4⟩ := h
    rcases h4 with ⟨hb, k', hk, hmute, hq⟩ | ⟨s, _, hm, _⟩
    · injection hk with _ hk
      subst hk
      rcases hq with ⟨hq, _⟩ | ⟨m', rest, hq, hop⟩
      · cases hq
      · injection hq with hq _
        subst hq
        obtain ⟨a1, a2⟩ := hmute m (by rw [hop]; simp)
        exact fin ⟨by omega, h1, h2, h3, n, hc, .inr ⟨2, by omega, a1, a2⟩⟩
    · rcases hm.1 with h' | ⟨_, h', _⟩ <;> cases h'
  | sFwConnect => rcases (blocked_session (a := .fwConnect) true nofun h fun m hm => .inl hm).1 with h' | ⟨_, h'⟩ <;> cases h'
  | @sFwSend c m k a b x y f => rcases (blocked_session (a := .fwSend m) true nofun h fun m hm => .inl hm).1 with h' | ⟨_, h'⟩ <;> cases h'
  | @sFwRecv c m k a b x y f => rcases (blocked_session (a := .fwRecv) (.msg m) nofun h fun m hm => .inl hm).1 with h' | ⟨_, h'⟩ <;> cases h'
  | serve now => exact absurd h.noRequest nofun
  | other op => exact ⟨⟨b, rfl, blocked_other h _⟩, nofun⟩

theorem blocked_steps {fconf : Config} {V V' : Whole} {evs : List WEv} {b : Nat} (hs : WSteps fconf V evs V') (h : Blocked b V) :
    (∃ b', b = b' + ownSteps evs ∧ Blocked b' V') ∧ ∀ m now, WEv.serve m now ∉ evs := by
  induction hs with
  | refl => exact ⟨⟨b, rfl, h⟩, by simp⟩
  | step _ hs ih =>
    obtain ⟨⟨b1, hb1, h1⟩, h2⟩ := ih
    obtain ⟨⟨b2, hb2, h3⟩, h4⟩ := blocked_step h1 hs
    refine ⟨⟨b2, by rw [ownSteps_append]; omega, h3⟩, fun m now hm => ?_⟩
    rcases List.mem_append.1 hm with hm | hm
    · exact h2 m now hm
    · exact h4 m now (List.mem_singleton.1 hm).symm

/-- As long as the session has not ended, somebody can go on. -/
theorem blocked_live {fconf : Config} {b : Nat} {V : Whole} (h : Blocked b V) : (∃ r, V.server = .ret r) ∨ ∃ V', WStep fconf V .exchange V' := by
  obtain ⟨c, s, a, q, x, y, f⟩ := V
  obtain ⟨h1, h2, h3, n, hc, h4⟩ := h
  have hz : secureRandom 8 (some goodSalt) = .ok goodSalt := by decide +kernel
  rcases h4 with ⟨hb, k, hk, hmute, hq⟩ | ⟨m, _, hm, _⟩
  · simp only at hk
    subst hk
    rcases hq with ⟨hq, hf⟩ | ⟨m', rest, hq, hop⟩
    · simp only at hf
      cases c with
      | ret r => exact hf.elim
      | act act kc => cases act <;> first | exact hf.elim | exact .inr ⟨_, .cConnect⟩ | exact .inr ⟨_, .cRand _ hz⟩ | exact .inr ⟨_, .cSend⟩
    · simp only at hq
      subst hq
      exact .inr ⟨_, .sRecv⟩
  · cases s with
    | ret r => exact .inl ⟨r, rfl⟩
    | act act ks =>
      rcases hm.1 with h' | ⟨m, h', _⟩ <;> subst h'
      · exact .inr ⟨_, .sRand8 _ hz⟩
      · exact .inr ⟨_, .sSend⟩

/-- **C134** (what is in the way). An honest knock was interrupted after the session had sent its Challenge (7 steps) and before the client sent its Response (10 steps). A new client takes its place with the same address and port, whoever's it is:
then it does not succeed, whatever happens, and letmeinfwd is not asked for anything. But the old session ends by that: client and session take ten steps at most, and one of them can take a step as
long as the session has not ended. -/
theorem C134_same_port_refused (mac : MacFn) (sconf fconf : Config) (peer : IpAddr) (u : UserId) (r : ResourceId) (key : Key) (res : Resource)
    (hk : sconf.key u = some key) (hg : Granted sconf u r res) (hp : res.tcp = true ∨ res.udp = true)
    (n : NftNames) (hn : ChainOf fconf n) (hc : CanOpen fconf n peer res.port)
    (k0 : Kernel) (startOk : Bool) (sI : FwdState) (hstart : fwdStart fconf k0 startOk = some sI)
    (before : List FwdOp) (hb : (fwdRun fconf sI before).2.phase ≠ .stopped) (evs : List WEv) (W : Whole)
    (hrun : WSteps fconf (Whole.init mac sconf peer u r key (fwdRun fconf sI before).2) evs W)
    (hfair : Fair fconf n sI (before ++ wholeOps evs)) (hterm : ∀ ok, FwdOp.terminate ok ∉ wholeOps evs)
    (h7 : 7 ≤ ownSteps evs) (h9 : ownSteps evs < 10)
    (u' : UserId) (r' : ResourceId) (key' : Key) (more : List WEv) (V : Whole) (hmore : WSteps fconf (W.newClient mac u' r' key') more V) :
    V.client ≠ .ret (.ok ()) ∧ (∀ m now, WEv.serve m now ∉ more) ∧ ownSteps more ≤ 10 ∧ ((∃ r, V.server = .ret r) ∨ ∃ V', WStep fconf V .exchange V') := by
  obtain ⟨pt, hpt⟩ : ∃ pt, res.portType = .ok pt := by
    unfold Resource.portType
    cases h1 : res.tcp <;> cases h2 : res.udp <;> simp_all
  have hu : res.containsUser u = true := by
    unfold Resource.containsUser
    rcases hg.allowed with h | h <;> simp [h]
  have h0 := server_SP0 mac sconf peer u r key res pt hk hg.configured hu hg.notControl hpt
  have hgd := (guarded_inv h0 hn hc hstart hb hrun hfair hterm).2 (by omega) (by omega)
  have hat := (whole_inv h0 hn hc hstart hb hrun hfair hterm).1
  have hkind := (wAt_kinds hat).2
  have hchan : W.c2s = [] ∧ (∀ m ∈ W.s2c, m.operation ≠ .ComeIn) ∧ W.toFw = [] := by
    unfold WAt at hat
    rw [if_pos (by omega)] at hat
    obtain ⟨hph, h1, _⟩ := hat
    have : ownSteps evs = 7 ∨ ownSteps evs = 8 ∨ ownSteps evs = 9 := by omega
    rcases this with hx | hx | hx <;> rw [hx] at hph
    · obtain ⟨s, nn, _, _, a, b, _⟩ := hph
      refine ⟨a, fun m hm => ?_, h1⟩
      rw [show W.s2c = _ from b, List.mem_singleton] at hm
      subst hm
      simp [Message.new]
    · obtain ⟨nn, _, _, a, b, _⟩ := hph
      exact ⟨a, fun m hm => (by rw [show W.s2c = [] from b] at hm; cases hm), h1⟩
    · obtain ⟨s, nn, _, _, a, b, _⟩ := hph
      exact ⟨a, fun m hm => (by rw [show W.s2c = [] from b] at hm; cases hm), h1⟩
  obtain ⟨k, hsk⟩ : ∃ k, W.server = .act .recv k := by
    have : ownSteps evs = 7 ∨ ownSteps evs = 8 ∨ ownSteps evs = 9 := by omega
    rcases this with hx | hx | hx <;> rw [hx] at hkind <;> exact hkind
  have hbl : Blocked 10 (W.newClient mac u' r' key') := by
    refine ⟨needs_knock mac u' r' key', hchan.2.1, hchan.2.2, 7, atMost_knock mac u' r' key', .inl ⟨by omega, k, hsk, ?_, .inl ⟨hchan.1, firstKnock_knock mac u' r' key'⟩⟩⟩
    rw [hsk] at hgd
    exact hgd.1 k rfl
  obtain ⟨⟨b, hb', h1⟩, h2⟩ := blocked_steps hmore hbl
  refine ⟨fun h => ?_, h2, by omega, blocked_live h1⟩
  have := h1.needs
  rw [h] at this
  exact this () rfl

/-- C134 as stated, for a new client with the same address and port as the interrupted one: it can still succeed. -/
def C134_statement : Prop :=
  ∀ (mac : MacFn) (sconf fconf : Config) (peer : IpAddr) (u : UserId) (r : ResourceId) (key : Key) (res : Resource) (_ : sconf.key u = some key) (_ : Granted sconf u r res)
    (_ : res.tcp = true ∨ res.udp = true) (n : NftNames) (_ : ChainOf fconf n) (_ : CanOpen fconf n peer res.port) (k0 : Kernel) (sI : FwdState) (_ : fwdStart fconf k0 true = some sI)
    (evs : List WEv) (W : Whole) (_ : WSteps fconf (Whole.init mac sconf peer u r key sI) evs W) (_ : Fair fconf n sI (wholeOps evs)) (_ : ∀ ok, FwdOp.terminate ok ∉ wholeOps evs),
    ∃ more V, WSteps fconf (W.newClient mac u r key) more V ∧ V.client = .ret (.ok ())

/-- **C134**, negation: not with the same address and port. -/
theorem C134_negation : ¬ C134_statement := by
  intro h
  have hk : fwConf.key ⟨0xA423DDA7⟩ = some (Arr.replicate 32 7) := by decide +kernel
  have hg : Granted fwConf ⟨0xA423DDA7⟩ ⟨0xBC5D8077⟩ { port := 22, tcp := true, udp := false, users := [] } := ⟨by decide +kernel, by decide +kernel, by decide +kernel⟩
  have hn : ChainOf fwConf fwNames := ⟨by decide, rfl, rfl, by decide, by decide⟩
  have hc : CanOpen fwConf fwNames examplePeer 22 :=
    ⟨⟨(⟨0xBC5D8077⟩, { port := 22, tcp := true, udp := false, users := [] }), by decide +kernel, rfl⟩, by decide +kernel, by decide +kernel, by decide, by decide, by decide, by decide⟩
  have h0 := server_SP0 toyMac fwConf examplePeer ⟨0xA423DDA7⟩ ⟨0xBC5D8077⟩ (Arr.replicate 32 7) { port := 22, tcp := true, udp := false, users := [] } .Tcp hk hg.configured
    (by decide +kernel) hg.notControl rfl
  obtain ⟨evs, T, _, ho, hw, hcount, _⟩ := slowest_run h0 hn hc fwStarted_ok (before := []) (by decide +kernel) trivial 0 0 0 0 8 (by decide)
  have own : ∀ e ∈ untimed evs, WEv.own e = true := by
    intro e he
    obtain ⟨x, hx, heq⟩ := List.mem_filterMap.1 he
    obtain ⟨e', h1, h2⟩ := ho x hx
    rw [h1] at heq
    injection heq with heq
    exact heq ▸ h2
  have hfair : Fair fwConf fwNames fwStarted ([] ++ wholeOps (untimed evs)) := requests_fair (own_ops own) _
  have hterm : ∀ ok, FwdOp.terminate ok ∉ wholeOps (untimed evs) := fun ok h => by obtain ⟨m, now, hx⟩ := own_ops own _ h; cases hx
  obtain ⟨more, V, h1, h2⟩ := h toyMac fwConf fwConf examplePeer ⟨0xA423DDA7⟩ ⟨0xBC5D8077⟩ _ _ hk hg (.inl rfl) fwNames hn hc fwKernel fwStarted fwStarted_ok _ _ hw hfair hterm
  exact (C134_same_port_refused toyMac fwConf fwConf examplePeer _ _ _ _ hk hg (.inl rfl) fwNames hn hc fwKernel true fwStarted fwStarted_ok [] (by decide +kernel) _ _ hw hfair hterm
    (by omega) (by omega) _ _ _ more V h1).1 h2

/-- **C134** (over a new connection; partial). Any number of knocks were interrupted, in any state, from any addresses. A further honest knock with a session of its own can be completed without any step of theirs, in 18 steps at most, and
succeeds. Missing: with UDP and the same local port there is no session of its own as long as the old one is there (`C134_negation`). -/
theorem C134_new_session_partial (mac : MacFn) (sconf fconf : Config) (n : NftNames) (hn : ChainOf fconf n) (k0 : Kernel) (startOk : Bool) (sI : FwdState)
    (hstart : fwdStart fconf k0 startOk = some sI) (before : List FwdOp) (hb : (fwdRun fconf sI before).2.phase ≠ .stopped) (hfair : Fair fconf n sI before)
    (num : Nat) (C0 : Crowd) (hf0 : C0.fwd = (fwdRun fconf sI before).2) (i : Nat) (hi : i < num) (k : Knocker) (res : Resource)
    (h0 : C0.whole i = Whole.init mac sconf k.peer k.user k.resource k.key C0.fwd) (hk : Entitled sconf k res) (hc : CanOpen fconf n k.peer res.port) :
    ∃ evs C, CSteps fconf num C0 evs C ∧ (∀ ev ∈ evs, ∃ e, ev = .knock i e) ∧ stepsOf i evs ≤ 18 ∧ (C.knocks i).client = .ret (.ok ()) ∧ (C.knocks i).server = .ret (.ok ()) := by
  have ops : ∀ evs C, CSteps fconf num C0 evs C → (∀ ev ∈ evs, ∃ e, ev = CEv.knock i e) → ∀ op ∈ crowdOps evs, ∃ m now, op = .request (.msg m) now true := by
    intro evs C hr
    induction hr with
    | refl => intro _ op ho; cases ho
    | @step C1 C2 evs e hr hs ih =>
      intro hall op ho
      rw [crowdOps, List.filterMap_append] at ho
      rcases List.mem_append.1 ho with ho | ho
      · exact ih (fun ev h => hall ev (by simp [h])) op ho
      · cases hs with
        | other op' => obtain ⟨e, he⟩ := hall (.other op') (by simp); cases he
        | @knock j e W hj hown hw =>
          cases e with
          | exchange => simp [CEv.fwdOp, WEv.fwdOp] at ho
          | serve m now =>
            simp [CEv.fwdOp, WEv.fwdOp] at ho
            exact ⟨m, now, ho⟩
          | other op' => cases hown
  have main : ∀ evs C, CSteps fconf num C0 evs C → (∀ ev ∈ evs, ∃ e, ev = CEv.knock i e) → stepsOf i evs ≤ 18 ∧
      ((∃ e C', CStep fconf num C (.knock i e) C') ∨ ((C.knocks i).client = .ret (.ok ()) ∧ (C.knocks i).server = .ret (.ok ()))) := by
    intro evs C hr hall
    have h := C131_among_strangers mac sconf fconf n hn k0 startOk sI hstart before hb num C0 hf0 i hi k res h0 hk hc evs C hr
      (fair_concat hfair (requests_fair (ops evs C hr hall) _)) (fun ok h => by obtain ⟨m, now, hx⟩ := ops evs C hr hall _ h; cases hx)
    exact ⟨h.1, h.2.imp id fun x => ⟨x.1, x.2.1⟩⟩
  have len : ∀ evs : List CEv, (∀ ev ∈ evs, ∃ e, ev = CEv.knock i e) → stepsOf i evs = evs.length := by
    intro evs hall
    unfold stepsOf
    rw [List.filter_eq_self.2]
    intro ev hev
    obtain ⟨e, rfl⟩ := hall ev hev
    simp
  have go : ∀ fuel evs C, CSteps fconf num C0 evs C → (∀ ev ∈ evs, ∃ e, ev = CEv.knock i e) → 19 ≤ fuel + evs.length →
      ∃ evs C, CSteps fconf num C0 evs C ∧ (∀ ev ∈ evs, ∃ e, ev = .knock i e) ∧ stepsOf i evs ≤ 18 ∧ (C.knocks i).client = .ret (.ok ()) ∧ (C.knocks i).server = .ret (.ok ()) := by
    intro fuel
    induction fuel with
    | zero =>
      intro evs C hr hall hl
      have := (main evs C hr hall).1
      rw [len evs hall] at this
      omega
    | succ fuel ih =>
      intro evs C hr hall hl
      obtain ⟨h1, ⟨e, C', hs⟩ | h2⟩ := main evs C hr hall
      · refine ih (evs ++ [.knock i e]) C' (.step hr hs) (fun ev hev => ?_) (by simp; omega)
        rcases List.mem_append.1 hev with hev | hev
        · exact hall ev hev
        · exact ⟨e, List.mem_singleton.1 hev⟩
      · exact ⟨evs, C, hr, hall, h1, h2⟩
  exact go 19 [] C0 (.refl _) (by simp) (by simp)

/-- A hundred interrupted knocks of the same user from the same address, each with a Knock that nobody waits for any more, and then an honest one. -/
example : ∃ evs C, CSteps fwConf 101 ⟨fun i => if i = 100 then Whole.init toyMac fwConf (crowdWho 1).peer ⟨0xA423DDA7⟩ ⟨0xBC5D8077⟩ (Arr.replicate 32 7) fwStarted else
      { Whole.init toyMac fwConf (crowdWho 1).peer ⟨0xA423DDA7⟩ ⟨0xBC5D8077⟩ (Arr.replicate 32 7) fwStarted with client := .ret .err, c2s := [exampleKnock] }, fwStarted⟩ evs C ∧
    (∀ ev ∈ evs, ∃ e, ev = .knock 100 e) ∧ (C.knocks 100).client = .ret (.ok ()) := by
  have hne : ∀ a, firstByte a ≠ some 10 → (crowdWho 1).peer ≠ a := fun a h e => h (by rw [← e]; rfl)
  obtain ⟨evs, C, h1, h2, _, h3, _⟩ := C134_new_session_partial toyMac fwConf fwConf fwNames ⟨by decide, rfl, rfl, by decide, by decide⟩ fwKernel true fwStarted fwStarted_ok [] (by decide +kernel) trivial 101
    ⟨fun i => if i = 100 then Whole.init toyMac fwConf (crowdWho 1).peer ⟨0xA423DDA7⟩ ⟨0xBC5D8077⟩ (Arr.replicate 32 7) fwStarted else
      { Whole.init toyMac fwConf (crowdWho 1).peer ⟨0xA423DDA7⟩ ⟨0xBC5D8077⟩ (Arr.replicate 32 7) fwStarted with client := .ret .err, c2s := [exampleKnock] }, fwStarted⟩ rfl 100 (by decide) (crowdWho 1)
    { port := 22, tcp := true, udp := false, users := [] } rfl
    ⟨show fwConf.key ⟨0xA423DDA7⟩ = some (Arr.replicate 32 7) by decide +kernel,
      show Granted fwConf ⟨0xA423DDA7⟩ ⟨0xBC5D8077⟩ _ from ⟨by decide +kernel, by decide +kernel, by decide +kernel⟩, .inl rfl⟩
    ⟨⟨(⟨0xBC5D8077⟩, { port := 22, tcp := true, udp := false, users := [] }), by decide +kernel, rfl⟩, by decide +kernel, rfl,
      hne _ (by decide), hne _ (by decide), hne _ (by decide), hne _ (by decide)⟩
  exact ⟨evs, C, h1, h2, h3⟩

end Letmein.Props
