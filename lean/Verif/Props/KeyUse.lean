import Verif.Spec.KeyUse
import Verif.Props.Session
import Verif.Props.Client
import Verif.Model.Process
import Verif.Props.EndToEnd

/-!
# Property C112: a key is used for its user's tags only
-/

namespace Letmein.Props

open Letmein Prog Spec

theorem checkAuthOk_alike {mac mac' : MacFn} {k k' : Key} (h : ∀ text, mac k text = mac' k' text) (m ch : Message) :
    m.checkAuthOk mac k ch = m.checkAuthOk mac' k' ch := by
  have e : ∀ c, m.authenticate mac k c = m.authenticate mac' k' c := fun c => h _
  unfold Message.checkAuthOk
  rw [e]

theorem checkKnock_alike {mac mac' : MacFn} {k k' : Key} (h : ∀ text, mac k text = mac' k' text) (m : Message) :
    m.checkAuthOkNoChallenge mac k = m.checkAuthOkNoChallenge mac' k' := by
  have e : m.authenticateNoChallenge mac k = m.authenticateNoChallenge mac' k' := h _
  unfold Message.checkAuthOkNoChallenge
  rw [e]

theorem generateAuth_alike {mac mac' : MacFn} {k k' : Key} (h : ∀ text, mac k text = mac' k' text) (m ch : Message) :
    m.generateAuth mac k ch = m.generateAuth mac' k' ch := by
  simp only [Message.generateAuth, Message.authenticate, h]

theorem generateKnock_alike {mac mac' : MacFn} {k k' : Key} (h : ∀ text, mac k text = mac' k' text) (m : Message) :
    m.generateAuthNoChallenge mac k = m.generateAuthNoChallenge mac' k' := by
  simp only [Message.generateAuthNoChallenge, Message.authenticateNoChallenge, Message.authenticate, h]

theorem reject_alike {α : Type} {conf conf' : Config} (hp : conf.controlErrorPolicy = conf'.controlErrorPolicy) (st : PState) :
    (reject conf st : Prog α) = reject conf' st := by
  simp only [reject, sendGoAway, hp]

theorem recvMsg_alike {conf conf' : Config} (hp : conf.controlErrorPolicy = conf'.controlErrorPolicy) (st : PState) (op : Operation) :
    recvMsg conf st op = recvMsg conf' st op := by
  simp only [recvMsg, reject_alike hp]

theorem sessionOpen_alike {conf conf' : Config} (hp : conf.controlErrorPolicy = conf'.controlErrorPolicy) (peer : IpAddr) (u : UserId)
    (r : ResourceId) {a b : Resource} (h1 : a.port = b.port) (h2 : a.tcp = b.tcp) (h3 : a.udp = b.udp) (st : PState) :
    sessionOpen conf peer u r a st = sessionOpen conf' peer u r b st := by
  simp only [sessionOpen, Resource.portType, reject_alike hp, h1, h2, h3]

theorem sessionChallenge_alike {mac mac' : MacFn} {conf conf' : Config} (hp : conf.controlErrorPolicy = conf'.controlErrorPolicy) (peer : IpAddr)
    (u : UserId) (r : ResourceId) {k k' : Key} (h : ∀ text, mac k text = mac' k' text)
    {a b : Resource} (h1 : a.port = b.port) (h2 : a.tcp = b.tcp) (h3 : a.udp = b.udp) (st : PState) :
    sessionChallenge mac conf peer u r k a st = sessionChallenge mac' conf' peer u r k' b st := by
  simp only [sessionChallenge, recvMsg_alike hp, reject_alike hp, checkAuthOk_alike h, sessionOpen_alike hp peer u r h1 h2 h3]

theorem containsUser_alike {u : UserId} {a b : Resource} (h : (a.users = [] ∨ u ∈ a.users) ↔ (b.users = [] ∨ u ∈ b.users)) :
    a.containsUser u = b.containsUser u := by
  have key : ∀ r : Resource, r.containsUser u = true ↔ (r.users = [] ∨ u ∈ r.users) := by
    intro r
    unfold Resource.containsUser
    cases hr : r.users <;> simp
  rw [Bool.eq_iff_iff, key, key, h]

/-- What follows the first receive. -/
def afterFirst (conf : Config) : RecvOut → Prog Message
  | .fail => .ret .err
  | .disconnected => .ret .err
  | .msg m => if m.operation ≠ .Knock then reject conf { userId := none, resourceId := none, authState := .NotAuth } else .ret (.ok m)

/-- A session once a Knock has come. -/
def sessionBody (mac : MacFn) (conf : Config) (peer : IpAddr) (knock : Message) : Prog Unit :=
  match conf.key knock.user with
  | none => reject conf { userId := some knock.user, resourceId := some knock.resource, authState := .NotAuth }
  | some key => do
    let ok ← Prog.ret (knock.checkAuthOkNoChallenge mac key)
    if !ok then reject conf { userId := some knock.user, resourceId := some knock.resource, authState := .NotAuth }
    else
      match conf.resource knock.resource with
      | none => reject conf { userId := some knock.user, resourceId := some knock.resource, authState := .BasicAuth }
      | some resource =>
        if !resource.containsUser knock.user then reject conf { userId := some knock.user, resourceId := some knock.resource, authState := .BasicAuth }
        else if resource.port = conf.port.port then reject conf { userId := some knock.user, resourceId := some knock.resource, authState := .BasicAuth }
        else sessionChallenge mac conf peer knock.user knock.resource key resource (PState.mk (some knock.user) (some knock.resource) .BasicAuth)

theorem failing_bind {α β : Type} (p : Prog Unit) (f g : α → Prog β) :
    Prog.bind (Prog.bind p (fun _ => .ret .err)) f = Prog.bind (Prog.bind p (fun _ => .ret .err)) g := by
  induction p with
  | ret r => cases r <;> rfl
  | act a k ih => simp only [Prog.bind, ih]

theorem session_split (mac : MacFn) (conf : Config) (peer : IpAddr) :
    session mac conf peer = .act .recv (fun x => Prog.bind (afterFirst conf x) (sessionBody mac conf peer)) := by
  rfl

/-- **C112** (letmeind). What a session does depends, besides the error policy, on nothing in the configuration but the tags that the key of the knocking user
gives, the entry of the requested resource as far as it concerns this user, and the number of the control port. So a key shows in nothing but tags
computed with it, and other users' keys do not matter at all. -/
theorem C112_server {mac mac' : MacFn} {conf conf' : Config} (peer : IpAddr) (hp : conf.controlErrorPolicy = conf'.controlErrorPolicy) (tr : List Ev)
    (h : ∀ m, (received tr).head? = some m → AgreeOn mac conf mac' conf' m.user m.resource) (o : Option (R Unit)) :
    (session mac conf peer).Trace tr o ↔ (session mac' conf' peer).Trace tr o := by
  rw [session_split, session_split]
  cases tr with
  | nil => exact Iff.rfl
  | cons e tr =>
    have key : ∀ x, e = ⟨.recv, x⟩ → Prog.bind (afterFirst conf x) (sessionBody mac conf peer) = Prog.bind (afterFirst conf' x) (sessionBody mac' conf' peer) := by
      rintro x rfl
      cases x with
      | fail => rfl
      | disconnected => rfl
      | msg m =>
        obtain ⟨ht, hr, hc⟩ := h m rfl
        simp only [afterFirst]
        by_cases ho : m.operation ≠ .Knock
        · rw [if_pos ho, if_pos ho, reject_alike hp]
          exact failing_bind _ _ _
        · rw [if_neg ho, if_neg ho]
          show sessionBody mac conf peer m = sessionBody mac' conf' peer m
          unfold sessionBody
          unfold TagsAlike at ht
          unfold AlikeFor at hr
          rw [hc]
          split at ht
          · rename_i e1 e2
            simp only [e1, e2, reject_alike hp]
          · rename_i k k' e1 e2
            simp only [e1, e2, reject_alike hp, checkKnock_alike ht]
            split at hr
            · rename_i e3 e4
              simp only [e3, e4]
            · rename_i a b e3 e4
              obtain ⟨h1, h2, h3, h4⟩ := hr
              simp only [e3, e4, h1, containsUser_alike h4, sessionChallenge_alike hp peer _ _ ht h1 h2 h3]
            · exact hr.elim
          · exact ht.elim
    constructor
    · rintro ⟨x, hx, ht⟩
      exact ⟨x, hx, by have := key x hx; dsimp only at ht ⊢; rw [← this]; exact ht⟩
    · rintro ⟨x, hx, ht⟩
      exact ⟨x, hx, by have := key x hx; dsimp only at ht ⊢; rw [this]; exact ht⟩

/-- Placeholders instead of keys, another user's key, another resource, another list of users: to the complete exchange of `exampleScript` it makes no difference, given
something that computes the tags. -/
example : let conf' := { exampleConf with
      keys := [(⟨5⟩, Arr.replicate 32 9), (⟨0xA423DDA7⟩, Arr.replicate 32 0)]
      resources := [(⟨0xBC5D8077⟩, { port := 22, tcp := true, udp := false, users := [⟨7⟩, ⟨0xA423DDA7⟩] })] }
    let mac' : MacFn := fun _ => toyMac (Arr.replicate 32 7)
    let t := play (session toyMac exampleConf examplePeer) exampleScript
    (∀ m, (received t.1).head? = some m → AgreeOn toyMac exampleConf mac' conf' m.user m.resource) ∧
    (session toyMac exampleConf examplePeer).Trace t.1 t.2 ∧ (session mac' conf' examplePeer).Trace t.1 t.2 ∧ t.2 = some (.ok ()) := by
  intro conf' mac' t
  have h1 : (received t.1).head? = some exampleKnock := by decide +kernel
  have hag : ∀ m, (received t.1).head? = some m → AgreeOn toyMac exampleConf mac' conf' m.user m.resource := by
    intro m hm
    rw [h1] at hm
    cases hm
    refine ⟨?_, ?_, rfl⟩
    · have e1 : exampleConf.key exampleKnock.user = some (Arr.replicate 32 7) := by decide +kernel
      have e2 : conf'.key exampleKnock.user = some (Arr.replicate 32 0) := by decide +kernel
      rw [e1, e2]
      exact fun _ => rfl
    · have e1 : exampleConf.resource exampleKnock.resource = some { port := 22, tcp := true, udp := false, users := [] } := by decide +kernel
      have e2 : conf'.resource exampleKnock.resource = some { port := 22, tcp := true, udp := false, users := [⟨7⟩, ⟨0xA423DDA7⟩] } := by decide +kernel
      rw [e1, e2]
      exact ⟨rfl, rfl, rfl, by simp [exampleKnock, Message.new]⟩
  have ht : (session toyMac exampleConf examplePeer).Trace t.1 t.2 := play_trace _ _
  exact ⟨hag, ht, (C112_server (mac := toyMac) (mac' := mac') (conf := exampleConf) (conf' := conf') examplePeer rfl t.1 hag t.2).1 ht, by decide +kernel⟩

/-- **C112** (letmein). The client's exchange depends on the key through the tags alone. -/
theorem C112_client {mac mac' : MacFn} {k k' : Key} (h : ∀ text, mac k text = mac' k' text) (u : UserId) (r : ResourceId) (tr : List Ev)
    (o : Option (R Unit)) : (knockSequence mac u r k).Trace tr o ↔ (knockSequence mac' u r k').Trace tr o := by
  simp only [knockSequence, generateAuth_alike h, generateKnock_alike h]

/-- Two different keys with the same tags, and an exchange with them. -/
example : (∀ text, toyMac (Arr.replicate 32 7) text = (fun _ => toyMac (Arr.replicate 32 7) : MacFn) (Arr.replicate 32 0) text) ∧
    (play (knockSequence toyMac ⟨0xA423DDA7⟩ ⟨0xBC5D8077⟩ (Arr.replicate 32 7)) clientScript).2 = some (.ok ()) :=
  ⟨fun _ => rfl, by decide +kernel⟩

/-! ## The processes -/

theorem fwdStep_keys (c : Config) (ks : List (UserId × Key)) (s : FwdState) (op : FwdOp) :
    fwdStep { c with keys := ks } s op = fwdStep c s op := by
  cases op <;> rfl

theorem lifeStep_keys (c : Config) (ks : List (UserId × Key)) (t : Bool) (ids : UInt32 × UInt32) (s : FwdLife) (ev : FwdEvent) :
    lifeStep ⟨{ c with keys := ks }, t, ids⟩ s ev = lifeStep ⟨c, t, ids⟩ s ev := by
  simp only [lifeStep, fwdStep_keys]
  rfl

theorem procRun_keys (c : Config) (ks : List (UserId × Key)) (t : Bool) (ids : UInt32 × UInt32) (es : List ProcEvent) :
    ∀ s, procRun ⟨{ c with keys := ks }, t, ids⟩ s es = procRun ⟨c, t, ids⟩ s es := by
  induction es with
  | nil => intro s; rfl
  | cons e es ih =>
    intro s
    simp only [procRun]
    rw [ih]
    congr 1

/-- **C112** (letmeinfwd). letmeinfwd makes no use of keys: with a configuration file that differs in the keys only it starts or fails in the same way, with the same
effect on the ruleset and the run directory, and from then on goes through the same states whatever happens. -/
theorem C112_fwd (o : FwdOpts) (w : FwdWorld) (file : FileContent) {c c' : Config}
    (h : (Config.new .Server).load w.f64 w.order o.config w.file = (.ok (), c))
    (h' : (Config.new .Server).load w.f64 w.order o.config file = (.ok (), c')) (hs : SameButKeys c c') :
    (fwdMain o { w with file }).1 = (fwdMain o w).1 ∧
    (∀ p, (fwdMain o w).2 = .ok p → ∃ p', (fwdMain o { w with file }).2 = .ok p' ∧ p'.fs = p.fs ∧ p'.filter = p.filter ∧ p'.own = p.own ∧ p'.life = p.life ∧
      ∀ es, procRun p'.setup ⟨p'.life, none⟩ es = procRun p.setup ⟨p.life, none⟩ es) ∧
    ((fwdMain o w).2 = .err → (fwdMain o { w with file }).2 = .err) ∧
    ((fwdMain o w).2 = .panic → (fwdMain o { w with file }).2 = .panic) := by
  obtain ⟨ks, rfl⟩ := hs
  have e1 : NftFirewall.new { c with keys := ks } w.kernel w.nftOk = NftFirewall.new c w.kernel w.nftOk := rfl
  have e2 : ∀ gid fs, fwdReady o { w with file } { c with keys := ks } gid fs = fwdReady o w c gid fs := fun _ _ => rfl
  unfold fwdMain
  dsimp only
  rw [h, h']
  dsimp only
  cases readEtcPasswd o.testMode w.passwd w.group with
  | err => simp
  | panic => simp
  | ok ids =>
    dsimp only
    rcases fwdMakeRunSubdir w.fsEnv o.testMode ids.2 w.fs with ⟨_ | _ | _, _, fs⟩
    · dsimp only
      rw [e1]
      rcases NftFirewall.new c w.kernel w.nftOk with ⟨fw | _ | _, k⟩
      · dsimp only
        rw [e2]
        cases fwdReady o w c ids.2 fs with
        | err => simp [R.bind]
        | panic => simp [R.bind]
        | ok r =>
          by_cases hl : o.limit > MAX_PERMITS
          · simp [R.bind, hl]
          · simp only [R.bind, if_neg hl]
            refine ⟨trivial, ?_, (by intro h; cases h), (by intro h; cases h)⟩
            rintro p hp
            cases hp
            exact ⟨_, rfl, rfl, rfl, rfl, rfl, fun es => procRun_keys c ks _ _ es _⟩
      · simp
      · simp
    · simp
    · simp

/-- The file of `e2eText` with another key, and one more. -/
def otherKeysText : Str :=
  ("[GENERAL]\nport = 5800 / tcp\n[NFTABLES]\nfamily = inet\ntable = filter\nchain-input = LETMEIN-INPUT\n[KEYS]\n" ++
  "A423DDA7 = 0908090809080908090809080908090809080908090809080908090809080908\n" ++
  "00000005 = 0807080708070807080708070807080708070807080708070807080708070807\n[RESOURCES]\nBC5D8077 = port: 22\n00000001 = port: 443 / users: 00000005\n").toList

/-- The hypotheses of `C112_fwd` and `C112_start`. -/
example : ∃ c c', (Config.new .Server).load e2eFwdWorld.f64 e2eFwdWorld.order e2eFwdOpts.config e2eFwdWorld.file = (.ok (), c) ∧
    (Config.new .Server).load e2eFwdWorld.f64 e2eFwdWorld.order e2eFwdOpts.config (.text otherKeysText) = (.ok (), c') ∧ SameButKeys c c' ∧
    c.keys.length = 1 ∧ c'.keys.length = 2 ∧ ∃ p, (fwdMain e2eFwdOpts e2eFwdWorld).2 = .ok p := by
  have h : (match (Config.new .Server).load e2eFwdWorld.f64 e2eFwdWorld.order e2eFwdOpts.config e2eFwdWorld.file,
      (Config.new .Server).load e2eFwdWorld.f64 e2eFwdWorld.order e2eFwdOpts.config (.text otherKeysText) with
      | (.ok _, c), (.ok _, c') => decide (c' = { c with keys := c'.keys }) && decide (c.keys.length = 1) && decide (c'.keys.length = 2)
      | _, _ => false) = true := by decide +kernel
  split at h
  · rename_i u c u' c' hc hc'
    simp only [Bool.and_eq_true, decide_eq_true_eq] at h
    obtain ⟨k, p, hp, _⟩ := e2e_fwd
    exact ⟨c, c', hc, hc', ⟨_, h.1.1⟩, h.1.2, h.2, p, by rw [hp]⟩
  · cases h

/-- **C112** (letmeind's start). Also letmeind's start does not depend on the keys, which are just handed to the sessions. -/
theorem C112_start (o : LmOpts) (w : LmWorld) (file : FileContent) {c c' : Config}
    (h : (Config.new .Server).load w.f64 w.order o.config w.file = (.ok (), c))
    (h' : (Config.new .Server).load w.f64 w.order o.config file = (.ok (), c')) (hs : SameButKeys c c') :
    (lmMain o { w with file } = .panic ↔ lmMain o w = .panic) ∧ (lmMain o { w with file } = .err ↔ lmMain o w = .err) ∧
    ∀ p, lmMain o w = .ok p ↔ p.conf = c ∧ lmMain o { w with file } = .ok { p with conf := c' } := by
  obtain ⟨ks, rfl⟩ := hs
  have e1 : installFor letmeindAllow w.platform o.seccomp { c with keys := ks } w.installOk = installFor letmeindAllow w.platform o.seccomp c w.installOk := rfl
  unfold lmMain
  dsimp only
  rw [h, h']
  dsimp only
  rw [e1]
  cases (createDirIfNotExists w.fsEnv (w.fsEnv.ok 0) lmDirPath w.fs).res with
  | err => simp [Bind.bind, R.bind]
  | panic => simp [Bind.bind, R.bind]
  | ok _ =>
    cases serverNew c.port o.noSystemd w.sockets w.usable w.notifyOk w.bindTcpOk w.bindUdpOk with
    | err => simp [Bind.bind, R.bind]
    | panic => simp [Bind.bind, R.bind]
    | ok li =>
      cases (makePidfile w.fsEnv lmPidPath w.chunks w.pid (createDirIfNotExists w.fsEnv (w.fsEnv.ok 0) lmDirPath w.fs).fs).res with
      | err => simp [Bind.bind, R.bind]
      | panic => simp [Bind.bind, R.bind]
      | ok _ =>
        cases installFor letmeindAllow w.platform o.seccomp c w.installOk with
        | err => simp [Bind.bind, R.bind]
        | panic => simp [Bind.bind, R.bind]
        | ok f =>
          cases lmStart o.limit with
          | err => simp [Bind.bind, R.bind]
          | panic => simp [Bind.bind, R.bind]
          | ok st =>
            simp only [Bind.bind, R.bind]
            refine ⟨(by simp), (by simp), fun p => ⟨?_, ?_⟩⟩
            · intro h
              cases h
              exact ⟨rfl, rfl⟩
            · rintro ⟨h1, h2⟩
              cases p
              simp at h1 h2 ⊢
              subst h1
              simpa using h2

/-- **C112** (the client's program). Running `letmein` with another file that differs in the keys of other users only gives the same. -/
theorem C112_other_keys (o : ClientOpts) (w : ClientWorld) (file : FileContent) {c c' : Config}
    (h : (Config.new .Client).load w.f64 w.order o.config w.file = (.ok (), c))
    (h' : (Config.new .Client).load w.f64 w.order o.config file = (.ok (), c')) (hs : SameButKeys c c')
    (hk : ∀ host port user sp tcp udp v4 v6, o.command = some (.knock host port user sp tcp udp v4 v6) →
      c'.key (user.getD c.defaultUser) = c.key (user.getD c.defaultUser)) :
    clientMain o { w with file } = clientMain o w := by
  obtain ⟨ks, rfl⟩ := hs
  have e1 : installFor letmeinAllow w.platform o.seccomp { c with keys := ks } w.installOk = installFor letmeinAllow w.platform o.seccomp c w.installOk := rfl
  have e2 : clientCommand o { w with file } { c with keys := ks } = clientCommand o w c := by
    unfold clientCommand
    rcases hc : o.command with _ | ⟨host, port, user, sp, tcp, udp, v4, v6⟩ | user
    · rfl
    · have := hk _ _ _ _ _ _ _ _ hc
      simp only [runKnock]
      rw [this]
      rfl
    · rfl
  unfold clientMain clientAsyncMain
  dsimp only
  rw [h, h']
  dsimp only
  rw [e1, e2]

/-- A file for the client of `e2eOpts` with one more key. -/
def otherClientText : Str :=
  ("[KEYS]\n00000005 = 0807080708070807080708070807080708070807080708070807080708070807\n" ++
  "A423DDA7 = 0707070707070707070707070707070707070707070707070707070707070707\n[RESOURCES]\nBC5D8077 = port: 22 / users: A423DDA7\n" ++
  "[CLIENT]\ndefault-user = A423DDA7\n").toList

/-- The hypotheses of `C112_other_keys`. -/
example : ∃ c c', (Config.new .Client).load e2eClientWorld.f64 e2eClientWorld.order e2eOpts.config e2eClientWorld.file = (.ok (), c) ∧
    (Config.new .Client).load e2eClientWorld.f64 e2eClientWorld.order e2eOpts.config (.text otherClientText) = (.ok (), c') ∧ SameButKeys c c' ∧
    c' ≠ c ∧ c'.key c.defaultUser = c.key c.defaultUser ∧ c.key c.defaultUser ≠ none ∧
    ∃ port, e2eOpts.command = some (.knock "server".toList port none none false false false false) := by
  have h : (match (Config.new .Client).load e2eClientWorld.f64 e2eClientWorld.order e2eOpts.config e2eClientWorld.file,
      (Config.new .Client).load e2eClientWorld.f64 e2eClientWorld.order e2eOpts.config (.text otherClientText) with
      | (.ok _, c), (.ok _, c') => decide (c' = { c with keys := c'.keys }) && decide (c' ≠ c) && decide (c'.key c.defaultUser = c.key c.defaultUser) &&
          decide (c.key c.defaultUser ≠ none)
      | _, _ => false) = true := by decide +kernel
  split at h
  · rename_i u c u' c' hc hc'
    simp only [Bool.and_eq_true, decide_eq_true_eq] at h
    exact ⟨c, c', hc, hc', ⟨_, h.1.1.1⟩, h.1.1.2, h.1.2, h.2, 22, rfl⟩
  · cases h

end Letmein.Props
