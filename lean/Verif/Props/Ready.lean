import Verif.Model.Ready
import Verif.Props.Main
import Verif.Props.Units

/-!
# Property C118: a service is reported as started when it is up
-/

namespace Letmein.Spec

/-- What letmeind goes through, without and with the message to systemd. -/
def lmSteps (told : Bool) : List StartStep :=
  if told then [.runDir, .config, .ready, .listening, .pidFile, .filter] else [.runDir, .config, .listening, .pidFile, .filter]

/-- What letmeinfwd goes through. -/
def fwdSteps (told : Bool) : List StartStep :=
  if told then [.accounts, .runDir, .config, .firewall, .ready, .listening, .pidFile, .filter]
  else [.accounts, .runDir, .config, .firewall, .listening, .pidFile, .filter]

/-- systemd has been told that the service is up. -/
def Told {α : Type} (x : Logged α) : Prop := StartStep.ready ∈ x.1

/-- Among the sockets is one of a protocol that is configured for the control port. -/
def PassesConfigured (port : ControlPort) (sockets : R (List SystemdSocket)) : Prop :=
  ∃ ss fd, sockets = .ok ss ∧ ((port.tcp = true ∧ SystemdSocket.Tcp fd ∈ ss) ∨ (port.udp = true ∧ SystemdSocket.Udp fd ∈ ss))

end Letmein.Spec

namespace Letmein.Props

open Letmein Prog Spec

/-! ## The record does not change what happens -/

theorem andThen_snd {α β : Type} (x : Logged α) (f : α → Logged β) : (x.andThen f).2 = x.2.bind fun a => (f a).2 := by
  obtain ⟨l, r⟩ := x
  cases r <;> rfl

theorem stage_snd {α : Type} (s : StartStep) (r : R α) : (stage s r).2 = r := by
  cases r <;> rfl

theorem silent_snd {α : Type} (r : R α) : (silent r).2 = r := rfl

theorem lmFromSystemd_snd (o : LmOpts) (w : LmWorld) (port : ControlPort) :
    (lmFromSystemd o w port).2 = serverFromSystemd port o.noSystemd w.sockets w.usable w.notifyOk := by
  unfold lmFromSystemd serverFromSystemd
  cases o.noSystemd with
  | true => rfl
  | false =>
    simp only [Bool.false_eq_true, if_false, andThen_snd, silent_snd]
    cases w.sockets with
    | err => rfl
    | panic => rfl
    | ok ss =>
      simp only [R.bind, R.bind_ok]
      cases serverSockets port w.usable { tcp := none, udp := none } ss with
      | err => rfl
      | panic => rfl
      | ok l =>
        simp only [R.bind_ok]
        cases h : (l.tcp.isSome || l.udp.isSome) <;> cases w.notifyOk <;> rfl

/-- **C118** (the record). Keeping the record changes nothing about the start of letmeind. -/
theorem C118_lm_result (o : LmOpts) (w : LmWorld) : (lmLog o w).2 = lmMain o w := by
  unfold lmLog lmMain serverNew
  simp only [andThen_snd, stage_snd, silent_snd, lmFromSystemd_snd]
  generalize (createDirIfNotExists w.fsEnv (w.fsEnv.ok 0) lmDirPath w.fs) = d
  cases d.res with
  | err => rfl
  | panic => rfl
  | ok u =>
    simp only [R.bind, R.bind_ok]
    generalize (Config.new .Server).load w.f64 w.order o.config w.file = x
    obtain ⟨r, conf⟩ := x
    cases r with
    | err => rfl
    | panic => rfl
    | ok u2 =>
      simp only [R.bind_ok]
      cases serverFromSystemd conf.port o.noSystemd w.sockets w.usable w.notifyOk with
      | err => rfl
      | panic => rfl
      | ok l =>
        simp only [R.bind_ok]
        have e : lmBind w conf.port l = (if l.tcp.isNone && l.udp.isNone then do
              let tcp ← bindIf conf.port.tcp w.bindTcpOk conf.port.port
              let udp ← bindIf conf.port.udp w.bindUdpOk conf.port.port
              R.ok { tcp, udp }
            else .ok l) := rfl
        rw [← e]
        cases lmBind w conf.port l with
        | err => rfl
        | panic => rfl
        | ok l =>
          simp only [R.bind_ok]
          cases (makePidfile w.fsEnv lmPidPath w.chunks w.pid d.fs).res with
          | err => rfl
          | panic => rfl
          | ok u3 =>
            simp only [R.bind_ok]
            cases installFor letmeindAllow w.platform o.seccomp conf w.installOk with
            | err => rfl
            | panic => rfl
            | ok f =>
              simp only [R.bind_ok]
              cases lmStart o.limit <;> rfl

theorem fwdListenLog_snd (o : FwdOpts) (w : FwdWorld) (gid : UInt32) (fs : Fs) : (fwdListenLog o w gid fs).2 = fwdListen o w gid fs := by
  unfold fwdListenLog fwdListen
  cases o.noSystemd with
  | false =>
    simp only [Bool.not_false, if_true, andThen_snd, silent_snd]
    cases w.sockets with
    | err => rfl
    | panic => rfl
    | ok ss =>
      simp only [R.bind]
      cases ss with
      | nil => rfl
      | cons s rest =>
        cases s with
        | Unix fd =>
          simp only [andThen_snd, silent_snd, stage_snd]
          cases w.usable fd <;> cases w.notifyOk <;> rfl
        | Udp fd => rfl
        | Tcp fd => rfl
  | true =>
    simp only [Bool.not_true, Bool.false_eq_true, if_false, andThen_snd, silent_snd]
    generalize fwdBindSocket w.fsEnv o.testMode gid fs = b
    obtain ⟨r, st, fs'⟩ := b
    cases r <;> rfl

/-- **C118** (the record). Keeping the record changes nothing about the start of letmeinfwd. -/
theorem C118_fwd_result (o : FwdOpts) (w : FwdWorld) : (fwdLog o w).2 = (fwdMain o w).2 := by
  unfold fwdLog fwdMain fwdReady
  simp only [andThen_snd, stage_snd, silent_snd, fwdListenLog_snd]
  cases readEtcPasswd o.testMode w.passwd w.group with
  | err => rfl
  | panic => rfl
  | ok ids =>
    simp only [R.bind]
    generalize fwdMakeRunSubdir w.fsEnv o.testMode ids.2 w.fs = d
    obtain ⟨r, st, fs⟩ := d
    cases r with
    | err => rfl
    | panic => rfl
    | ok u =>
      simp only
      generalize (Config.new .Server).load w.f64 w.order o.config w.file = x
      obtain ⟨r, conf⟩ := x
      cases r with
      | err => rfl
      | panic => rfl
      | ok u2 =>
        simp only
        generalize NftFirewall.new conf w.kernel w.nftOk = y
        obtain ⟨r, k⟩ := y
        cases r with
        | err => rfl
        | panic => rfl
        | ok fw =>
          simp only
          cases fwdListen o w ids.2 fs with
          | err => rfl
          | panic => rfl
          | ok fs =>
            simp only [R.bind_ok]
            cases (makePidfile w.fsEnv fwdPidPath w.chunks w.pid fs).res with
            | err => rfl
            | panic => rfl
            | ok u3 =>
              simp only [R.bind_ok]
              cases installFor letmeinfwdAllow w.platform o.seccomp conf w.installOk with
              | err => rfl
              | panic => rfl
              | ok f =>
                simp only [R.bind_ok]
                by_cases h : o.limit > MAX_PERMITS
                · rw [if_pos h, if_pos h]
                · rw [if_neg h, if_neg h]

/-! ## The steps -/

/-- Succeeds with `pre ++ last`, or else gets through a beginning of `pre`. -/
def Thru {α : Type} (pre last : List StartStep) (x : Logged α) : Prop :=
  (∀ a, x.2 = .ok a → x.1 = pre ++ last) ∧ ((∀ a, x.2 ≠ .ok a) → x.1 <+: pre)

theorem thru_stage {α : Type} (s : StartStep) (r : R α) : Thru [] [s] (stage s r) := by
  cases r <;> simp [Thru, stage]

theorem thru_silent {α : Type} (r : R α) : Thru [] [] (silent r) := by
  simp [Thru, silent]

theorem thru_andThen {α β : Type} {p1 l1 p2 l2 : List StartStep} {x : Logged α} {f : α → Logged β} (hx : Thru p1 l1 x)
    (hf : ∀ a, x.2 = .ok a → Thru p2 l2 (f a)) : Thru (p1 ++ l1 ++ p2) l2 (x.andThen f) := by
  obtain ⟨l, r⟩ := x
  cases r with
  | ok a =>
    obtain ⟨h1, h2⟩ := hf a rfl
    obtain rfl := hx.1 a rfl
    refine ⟨fun b hb => ?_, fun hb => ?_⟩
    · show (p1 ++ l1) ++ (f a).1 = _
      rw [h1 b hb]
      simp only [List.append_assoc]
    · exact (List.prefix_append_right_inj _).2 (h2 hb)
  | err =>
    refine ⟨fun b hb => (by cases hb), fun _ => ?_⟩
    have := hx.2 (fun a ha => by cases ha)
    exact this.trans (by rw [List.append_assoc]; exact List.prefix_append ..)
  | panic =>
    refine ⟨fun b hb => (by cases hb), fun _ => ?_⟩
    have := hx.2 (fun a ha => by cases ha)
    exact this.trans (by rw [List.append_assoc]; exact List.prefix_append ..)

theorem thru_map {α β : Type} {p l : List StartStep} {x : Logged α} {f : α → β} (hx : Thru p l x) :
    Thru p l (x.andThen fun a => silent (.ok (f a))) := by
  obtain ⟨l', r⟩ := x
  cases r with
  | ok a =>
    obtain rfl := hx.1 a rfl
    exact ⟨fun _ _ => by simp [Logged.andThen, silent], fun h => absurd rfl (h (f a))⟩
  | err => exact ⟨fun b hb => (by cases hb), fun _ => hx.2 (fun a ha => by cases ha)⟩
  | panic => exact ⟨fun b hb => (by cases hb), fun _ => hx.2 (fun a ha => by cases ha)⟩

theorem serverSockets_some (port : ControlPort) (usable : Nat → Bool) (ss : List SystemdSocket) (l l' : Listening)
    (h : serverSockets port usable l ss = .ok l') :
    (l'.tcp.isSome = true ↔ l.tcp.isSome = true ∨ (port.tcp = true ∧ ∃ fd, SystemdSocket.Tcp fd ∈ ss)) ∧
    (l'.udp.isSome = true ↔ l.udp.isSome = true ∨ (port.udp = true ∧ ∃ fd, SystemdSocket.Udp fd ∈ ss)) := by
  induction ss generalizing l with
  | nil =>
    simp only [serverSockets, R.ok.injEq] at h
    subst h
    simp
  | cons s rest ih =>
    cases s with
    | Unix fd => simp [serverSockets] at h
    | Tcp fd =>
      simp only [serverSockets] at h
      split at h
      · cases h
      · split at h
        · rename_i h1
          obtain ⟨a, b⟩ := ih _ h
          refine ⟨?_, by simpa using b⟩
          rw [a]
          simp at h1
          simp [h1]
        · split at h
          · cases h
          · rename_i h1 _
            obtain ⟨a, b⟩ := ih _ h
            refine ⟨?_, by simpa using b⟩
            rw [a]
            simp at h1
            simp [h1]
    | Udp fd =>
      simp only [serverSockets] at h
      split at h
      · cases h
      · split at h
        · rename_i h1
          obtain ⟨a, b⟩ := ih _ h
          refine ⟨by simpa using a, ?_⟩
          rw [b]
          simp at h1
          simp [h1]
        · split at h
          · cases h
          · rename_i h1 _
            obtain ⟨a, b⟩ := ih _ h
            refine ⟨by simpa using a, ?_⟩
            rw [b]
            simp at h1
            simp [h1]

/-- What letmeind does after it has looked at the sockets from systemd. -/
def lmRest (o : LmOpts) (w : LmWorld) (dir : FsOut Unit) (conf : Config) (l : Listening) : Logged LmProc :=
  (stage .listening (lmBind w conf.port l)).andThen fun listening =>
  let pid := makePidfile w.fsEnv lmPidPath w.chunks w.pid dir.fs
  (stage .pidFile pid.res).andThen fun _ =>
  (stage .filter (installFor letmeindAllow w.platform o.seccomp conf w.installOk)).andThen fun filter =>
  (stage .tasks (lmStart o.limit)).andThen fun state =>
  silent (.ok { conf, listening, filter, fs := pid.fs, state })

theorem lmRest_thru (o : LmOpts) (w : LmWorld) (dir : FsOut Unit) (conf : Config) (l : Listening) :
    Thru [.listening, .pidFile, .filter] [.tasks] (lmRest o w dir conf l) :=
  thru_andThen (thru_stage ..) fun _ _ => thru_andThen (p2 := [.filter]) (thru_stage ..) fun _ _ =>
    thru_andThen (p2 := []) (thru_stage ..) fun _ _ => thru_map (thru_stage ..)

theorem lmLog_eq (o : LmOpts) (w : LmWorld) : lmLog o w =
    (stage .runDir (createDirIfNotExists w.fsEnv (w.fsEnv.ok 0) lmDirPath w.fs).res).andThen fun _ =>
    (stage .config ((Config.new .Server).load w.f64 w.order o.config w.file).1).andThen fun _ =>
    (lmFromSystemd o w ((Config.new .Server).load w.f64 w.order o.config w.file).2.port).andThen fun l =>
      lmRest o w (createDirIfNotExists w.fsEnv (w.fsEnv.ok 0) lmDirPath w.fs) ((Config.new .Server).load w.f64 w.order o.config w.file).2 l := rfl

/-- The part with systemd: fails silently, or goes on, having told systemd or not. -/
theorem lmFromSystemd_cases (o : LmOpts) (w : LmWorld) (port : ControlPort) :
    (lmFromSystemd o w port = ([], .err) ∨ lmFromSystemd o w port = ([], .panic)) ∨
    (∃ l, lmFromSystemd o w port = ([.ready], .ok l) ∧ o.noSystemd = false ∧ PassesConfigured port w.sockets ∧ (l.tcp.isNone && l.udp.isNone) = false) ∨
    (∃ l, lmFromSystemd o w port = ([], .ok l) ∧ ¬ (o.noSystemd = false ∧ PassesConfigured port w.sockets)) := by
  unfold lmFromSystemd
  cases hn : o.noSystemd with
  | true => exact .inr (.inr ⟨_, rfl, (by simp)⟩)
  | false =>
    cases hs : w.sockets with
    | err => exact .inl (.inl rfl)
    | panic => exact .inl (.inr rfl)
    | ok ss =>
      simp only [Bool.false_eq_true, if_false, silent, Logged.andThen, List.nil_append]
      cases hl : serverSockets port w.usable { tcp := none, udp := none } ss with
      | err => exact .inl (.inl rfl)
      | panic => exact .inl (.inr rfl)
      | ok l =>
        obtain ⟨ht, hu⟩ := serverSockets_some port w.usable ss _ l hl
        simp only [Option.isSome_none, Bool.false_eq_true, false_or] at ht hu
        simp only
        cases hc : (l.tcp.isSome || l.udp.isSome) with
        | true =>
          cases w.notifyOk with
          | false => exact .inl (.inl rfl)
          | true =>
            refine .inr (.inl ⟨l, rfl, trivial, ?_, ?_⟩)
            · rcases Bool.or_eq_true_iff.1 hc with h | h
              · obtain ⟨a, fd, b⟩ := ht.1 h
                exact ⟨ss, fd, rfl, .inl ⟨a, b⟩⟩
              · obtain ⟨a, fd, b⟩ := hu.1 h
                exact ⟨ss, fd, rfl, .inr ⟨a, b⟩⟩
            · obtain ⟨t, u⟩ := l
              cases t <;> cases u <;> simp at hc ⊢
        | false =>
          refine .inr (.inr ⟨l, rfl, ?_⟩)
          rintro ⟨_, ss', fd, h1, h2⟩
          injection h1 with h1
          subst h1
          rw [Bool.or_eq_false_iff] at hc
          rcases h2 with ⟨a, b⟩ | ⟨a, b⟩
          · exact absurd (ht.2 ⟨a, fd, b⟩) (by rw [hc.1]; simp)
          · exact absurd (hu.2 ⟨a, fd, b⟩) (by rw [hc.2]; simp)

/-- **C118** (letmeind, the steps). letmeind gets through its steps in this order; it runs exactly if it got through all of them. -/
theorem C118_lm_steps (o : LmOpts) (w : LmWorld) : ∃ told,
    (∀ p, lmMain o w = .ok p → (lmLog o w).1 = lmSteps told ++ [.tasks]) ∧
    ((∀ p, lmMain o w ≠ .ok p) → (lmLog o w).1 <+: lmSteps told) := by
  rw [← C118_lm_result, lmLog_eq]
  generalize createDirIfNotExists w.fsEnv (w.fsEnv.ok 0) lmDirPath w.fs = d
  generalize (Config.new .Server).load w.f64 w.order o.config w.file = x
  have hs : ∃ told : Bool, Thru [] (if told then [.ready] else []) (lmFromSystemd o w x.2.port) := by
    rcases lmFromSystemd_cases o w x.2.port with (h | h) | ⟨l, h, _⟩ | ⟨l, h, _⟩
    · exact ⟨false, by rw [h]; exact ⟨fun _ h => by (cases h), fun _ => List.nil_prefix⟩⟩
    · exact ⟨false, by rw [h]; exact ⟨fun _ h => by (cases h), fun _ => List.nil_prefix⟩⟩
    · exact ⟨true, by rw [h]; exact ⟨fun _ _ => rfl, fun h => absurd rfl (h l)⟩⟩
    · exact ⟨false, by rw [h]; exact ⟨fun _ _ => rfl, fun h => absurd rfl (h l)⟩⟩
  obtain ⟨told, hs⟩ := hs
  have h := thru_andThen (thru_stage .runDir d.res) fun _ _ => thru_andThen (thru_stage .config x.1) fun _ _ =>
    thru_andThen hs fun l _ => lmRest_thru o w d x.2 l
  refine ⟨told, ?_⟩
  cases told <;> exact h

/-- **C118** (letmeind, partial: what holds when systemd is told). If systemd is told that letmeind is up, the configuration has been loaded and the
sockets are being listened on. Missing from the full statement: that letmeind runs, see `C118_negation_early`, and that systemd is told whenever it
runs, see `C118_negation_never`. -/
theorem C118_lm_partial (o : LmOpts) (w : LmWorld) (h : Told (lmLog o w)) : [.runDir, .config, .ready, .listening] <+: (lmLog o w).1 := by
  unfold Told at h
  rw [lmLog_eq] at h ⊢
  revert h
  generalize createDirIfNotExists w.fsEnv (w.fsEnv.ok 0) lmDirPath w.fs = d
  generalize (Config.new .Server).load w.f64 w.order o.config w.file = x
  obtain ⟨r, conf⟩ := x
  cases d.res with
  | err => simp [stage, Logged.andThen]
  | panic => simp [stage, Logged.andThen]
  | ok u =>
    cases r with
    | err => simp [stage, Logged.andThen]
    | panic => simp [stage, Logged.andThen]
    | ok u2 =>
      rcases lmFromSystemd_cases o w conf.port with (h | h) | ⟨l, h, _, _, hl⟩ | ⟨l, h, _⟩
      · simp [stage, Logged.andThen, h]
      · simp [stage, Logged.andThen, h]
      · intro _
        simp only [stage, Logged.andThen, h, lmRest, lmBind, hl, Bool.false_eq_true, if_false, List.cons_append, List.nil_append]
        exact List.prefix_append [StartStep.runDir, .config, .ready, .listening] _
      · intro hr
        simp only [stage, Logged.andThen, h, List.nil_append, List.cons_append, List.mem_cons, reduceCtorEq, false_or] at hr
        exfalso
        have ht := lmRest_thru o w d conf l
        generalize lmRest o w d conf l = y at ht hr
        obtain ⟨l', r'⟩ := y
        cases r' with
        | ok a =>
          have := ht.1 a rfl
          simp only at this hr
          rw [this] at hr
          simp at hr
        | err =>
          have := (ht.2 (fun a ha => by cases ha)).subset hr
          simp at this
        | panic =>
          have := (ht.2 (fun a ha => by cases ha)).subset hr
          simp at this

/-- **C118** (letmeind, exact). systemd is told that letmeind, which runs, is up if and only if it is not to be ignored and has passed a socket of a
configured protocol. -/
theorem C118_lm_iff {o : LmOpts} {w : LmWorld} {p : LmProc} (h : lmMain o w = .ok p) :
    Told (lmLog o w) ↔ o.noSystemd = false ∧ PassesConfigured p.conf.port w.sockets := by
  rw [← C118_lm_result] at h
  unfold Told
  rw [lmLog_eq] at h ⊢
  revert h
  generalize createDirIfNotExists w.fsEnv (w.fsEnv.ok 0) lmDirPath w.fs = d
  generalize (Config.new .Server).load w.f64 w.order o.config w.file = x
  obtain ⟨r, conf⟩ := x
  cases d.res with
  | err => intro h; cases h
  | panic => intro h; cases h
  | ok u =>
    cases r with
    | err => intro h; cases h
    | panic => intro h; cases h
    | ok u2 =>
      have hc : ∀ l, (lmRest o w d conf l).2 = .ok p → p.conf = conf := by
        intro l h
        simp only [lmRest, andThen_snd, stage_snd, silent_snd] at h
        repeat
          first
          | (obtain ⟨_, _, h⟩ := R.bind_eq_ok.1 h; try simp only at h)
        injection h with h
        rw [← h]
      rcases lmFromSystemd_cases o w conf.port with (h | h) | ⟨l, h, h1, h2, hl⟩ | ⟨l, h, h1⟩
      · simp [stage, Logged.andThen, h]
      · simp [stage, Logged.andThen, h]
      · intro hr
        simp only [stage, Logged.andThen, h] at hr ⊢
        rw [hc l hr]
        exact ⟨fun _ => ⟨h1, h2⟩, fun _ => by simp⟩
      · intro hr
        simp only [stage, Logged.andThen, h] at hr ⊢
        rw [hc l hr]
        refine ⟨fun hm => ?_, fun hm => absurd hm h1⟩
        exfalso
        have := (lmRest_thru o w d conf l).1 p hr
        rw [this] at hm
        simp at hm

/-- What letmeinfwd does after it has got a socket. -/
def fwdRest (o : FwdOpts) (w : FwdWorld) (ids : UInt32 × UInt32) (conf : Config) (fw : NftFirewall) (k : Kernel) (fs : Fs) : Logged FwdProc :=
  (stage .listening (.ok ())).andThen fun _ =>
  let pid := makePidfile w.fsEnv fwdPidPath w.chunks w.pid fs
  (stage .pidFile pid.res).andThen fun _ =>
  (stage .filter (installFor letmeinfwdAllow w.platform o.seccomp conf w.installOk)).andThen fun filter =>
  (stage .tasks (if o.limit > MAX_PERMITS then .panic else .ok ())).andThen fun _ =>
  silent (.ok
    { setup := { conf, testMode := o.testMode, ids }, filter, fs := pid.fs, own := o.noSystemd
      life := { core := { phase := .running, fw, kernel := k }, accept := .accepting, permits := o.limit, exitMsg := false,
                conns := [], nextId := 0 } })

theorem fwdRest_thru (o : FwdOpts) (w : FwdWorld) (ids : UInt32 × UInt32) (conf : Config) (fw : NftFirewall) (k : Kernel) (fs : Fs) :
    Thru [.listening, .pidFile, .filter] [.tasks] (fwdRest o w ids conf fw k fs) :=
  thru_andThen (thru_stage ..) fun _ _ => thru_andThen (p2 := [.filter]) (thru_stage ..) fun _ _ =>
    thru_andThen (p2 := []) (thru_stage ..) fun _ _ => thru_map (thru_stage ..)

theorem fwdLog_eq (o : FwdOpts) (w : FwdWorld) : fwdLog o w =
    (stage .accounts (readEtcPasswd o.testMode w.passwd w.group)).andThen fun ids =>
    (stage .runDir (fwdMakeRunSubdir w.fsEnv o.testMode ids.2 w.fs).res).andThen fun _ =>
    (stage .config ((Config.new .Server).load w.f64 w.order o.config w.file).1).andThen fun _ =>
    (stage .firewall (NftFirewall.new ((Config.new .Server).load w.f64 w.order o.config w.file).2 w.kernel w.nftOk).1).andThen fun fw =>
    (fwdListenLog o w ids.2 (fwdMakeRunSubdir w.fsEnv o.testMode ids.2 w.fs).fs).andThen fun fs =>
      fwdRest o w ids ((Config.new .Server).load w.f64 w.order o.config w.file).2 fw
        (NftFirewall.new ((Config.new .Server).load w.f64 w.order o.config w.file).2 w.kernel w.nftOk).2 fs := rfl

theorem fwdListenLog_cases (o : FwdOpts) (w : FwdWorld) (gid : UInt32) (fs : Fs) :
    (fwdListenLog o w gid fs = ([], .err) ∨ fwdListenLog o w gid fs = ([], .panic)) ∨
    (∃ fs', fwdListenLog o w gid fs = ([.ready], .ok fs') ∧ o.noSystemd = false) ∨
    (∃ fs', fwdListenLog o w gid fs = ([], .ok fs') ∧ o.noSystemd = true) := by
  unfold fwdListenLog
  cases o.noSystemd with
  | true =>
    simp only [Bool.not_true, Bool.false_eq_true, if_false]
    generalize fwdBindSocket w.fsEnv o.testMode gid fs = b
    obtain ⟨r, st, fs'⟩ := b
    cases r with
    | ok u => exact .inr (.inr ⟨_, rfl, trivial⟩)
    | err => exact .inl (.inl rfl)
    | panic => exact .inl (.inr rfl)
  | false =>
    simp only [Bool.not_false, if_true]
    cases w.sockets with
    | err => exact .inl (.inl rfl)
    | panic => exact .inl (.inr rfl)
    | ok ss =>
      simp only [silent, Logged.andThen, List.nil_append]
      cases ss with
      | nil => exact .inl (.inl rfl)
      | cons s rest =>
        cases s with
        | Udp fd => exact .inl (.inl rfl)
        | Tcp fd => exact .inl (.inl rfl)
        | Unix fd =>
          simp only
          cases w.usable fd with
          | false => exact .inl (.inl rfl)
          | true =>
            cases w.notifyOk with
            | false => exact .inl (.inl rfl)
            | true => exact .inr (.inl ⟨_, rfl, trivial⟩)

/-- **C118** (letmeinfwd, the steps). letmeinfwd gets through its steps in this order; it runs exactly if it got through all of them. -/
theorem C118_fwd_steps (o : FwdOpts) (w : FwdWorld) : ∃ told,
    (∀ p, (fwdMain o w).2 = .ok p → (fwdLog o w).1 = fwdSteps told ++ [.tasks]) ∧
    ((∀ p, (fwdMain o w).2 ≠ .ok p) → (fwdLog o w).1 <+: fwdSteps told) := by
  rw [← C118_fwd_result, fwdLog_eq]
  generalize (Config.new .Server).load w.f64 w.order o.config w.file = x
  generalize NftFirewall.new x.2 w.kernel w.nftOk = y
  have hs : ∃ told : Bool, ∀ ids : UInt32 × UInt32, readEtcPasswd o.testMode w.passwd w.group = .ok ids →
      Thru [] (if told then [.ready] else []) (fwdListenLog o w ids.2 (fwdMakeRunSubdir w.fsEnv o.testMode ids.2 w.fs).fs) := by
    cases readEtcPasswd o.testMode w.passwd w.group with
    | err => exact ⟨false, fun _ h => by (cases h)⟩
    | panic => exact ⟨false, fun _ h => by (cases h)⟩
    | ok ids =>
      rcases fwdListenLog_cases o w ids.2 (fwdMakeRunSubdir w.fsEnv o.testMode ids.2 w.fs).fs with (h | h) | ⟨l, h, _⟩ | ⟨l, h, _⟩
      · exact ⟨false, fun _ e => by injection e with e; subst e; rw [h]; exact ⟨fun _ h => by (cases h), fun _ => List.nil_prefix⟩⟩
      · exact ⟨false, fun _ e => by injection e with e; subst e; rw [h]; exact ⟨fun _ h => by (cases h), fun _ => List.nil_prefix⟩⟩
      · exact ⟨true, fun _ e => by injection e with e; subst e; rw [h]; exact ⟨fun _ _ => rfl, fun h => absurd rfl (h l)⟩⟩
      · exact ⟨false, fun _ e => by injection e with e; subst e; rw [h]; exact ⟨fun _ _ => rfl, fun h => absurd rfl (h l)⟩⟩
  obtain ⟨told, hs⟩ := hs
  have h := thru_andThen (thru_stage .accounts (readEtcPasswd o.testMode w.passwd w.group)) fun ids hids =>
    thru_andThen (thru_stage .runDir (fwdMakeRunSubdir w.fsEnv o.testMode ids.2 w.fs).res) fun _ _ => thru_andThen (thru_stage .config x.1) fun _ _ =>
    thru_andThen (thru_stage .firewall y.1) fun fw _ => thru_andThen (hs ids (by rw [stage_snd] at hids; exact hids)) fun fs _ =>
      fwdRest_thru o w ids x.2 fw y.2 fs
  refine ⟨told, ?_⟩
  cases told <;> exact h

theorem ready_not_fwdRest (o : FwdOpts) (w : FwdWorld) (ids : UInt32 × UInt32) (conf : Config) (fw : NftFirewall) (k : Kernel) (fs : Fs) :
    StartStep.ready ∉ (fwdRest o w ids conf fw k fs).1 := by
  intro hr
  have ht := fwdRest_thru o w ids conf fw k fs
  generalize fwdRest o w ids conf fw k fs = y at ht hr
  obtain ⟨l', r'⟩ := y
  cases r' with
  | ok a =>
    have := ht.1 a rfl
    simp only at this hr
    rw [this] at hr
    simp at hr
  | err =>
    have := (ht.2 (fun a ha => by cases ha)).subset hr
    simp at this
  | panic =>
    have := (ht.2 (fun a ha => by cases ha)).subset hr
    simp at this

/-- **C118** (letmeinfwd, partial: what holds when systemd is told). If systemd is told that letmeinfwd is up, and therefore starts letmeind, the
configured chain accepts exactly the packets to the control port, whatever was in it before, and the socket for letmeind is being listened on.
Missing from the full statement: that letmeinfwd runs, see `C118_negation_early`. -/
theorem C118_fwd_partial (o : FwdOpts) (w : FwdWorld) (h : Told (fwdLog o w)) :
    [.accounts, .runDir, .config, .firewall, .ready, .listening] <+: (fwdLog o w).1 ∧
    ∃ conf, (Config.new .Server).load w.f64 w.order o.config w.file = (.ok (), conf) ∧ ∀ n, ChainOf conf n → ∀ pkt,
      (chainAccepts n (fwdMain o w).1 pkt = true ↔ familySees n.family pkt.src = true ∧ toControlPort conf pkt) := by
  unfold Told at h
  rw [fwdLog_eq] at h ⊢
  unfold fwdMain
  revert h
  cases readEtcPasswd o.testMode w.passwd w.group with
  | err => simp [stage, Logged.andThen]
  | panic => simp [stage, Logged.andThen]
  | ok ids =>
    generalize hd : fwdMakeRunSubdir w.fsEnv o.testMode ids.2 w.fs = d
    obtain ⟨rd, st, fs⟩ := d
    simp only [stage, Logged.andThen, hd]
    cases rd with
    | err => simp
    | panic => simp
    | ok u =>
      generalize (Config.new .Server).load w.f64 w.order o.config w.file = x
      obtain ⟨r, conf⟩ := x
      cases r with
      | err => simp
      | panic => simp
      | ok u2 =>
        simp only
        cases hy : NftFirewall.new conf w.kernel w.nftOk with
        | mk ry k =>
          cases ry with
          | err => simp
          | panic => simp
          | ok fw =>
            simp only
            rcases fwdListenLog_cases o w ids.2 fs with (h | h) | ⟨fs', h, _⟩ | ⟨fs', h, _⟩
            · simp [h]
            · simp [h]
            · intro _
              simp only [h]
              refine ⟨?_, conf, rfl, fun n hn pkt => ?_⟩
              · exact ⟨_, rfl⟩
              · have hst : fwdStart conf w.kernel w.nftOk = some { phase := .running, fw, kernel := k } := by
                  unfold fwdStart
                  rw [hy]
                have := C19_chain_equals_grants conf n hn w.kernel w.nftOk _ hst [] trivial rfl pkt
                simp only [fwdRun] at this
                rw [this]
                refine ⟨fun h => h.elim id ?_, .inl⟩
                rintro ⟨addr, p, e, h, _⟩
                cases h
            · intro hr
              simp only [h] at hr
              exact absurd hr (by simp [ready_not_fwdRest])

/-- **C118** (letmeinfwd, exact). systemd is told that letmeinfwd, which runs, is up if and only if it is not to be ignored. -/
theorem C118_fwd_iff {o : FwdOpts} {w : FwdWorld} {p : FwdProc} (h : (fwdMain o w).2 = .ok p) : Told (fwdLog o w) ↔ o.noSystemd = false := by
  rw [← C118_fwd_result] at h
  unfold Told
  rw [fwdLog_eq] at h ⊢
  revert h
  cases readEtcPasswd o.testMode w.passwd w.group with
  | err => simp [stage, Logged.andThen]
  | panic => simp [stage, Logged.andThen]
  | ok ids =>
    generalize hd : fwdMakeRunSubdir w.fsEnv o.testMode ids.2 w.fs = d
    obtain ⟨rd, st, fs⟩ := d
    simp only [stage, Logged.andThen, hd]
    cases rd with
    | err => simp
    | panic => simp
    | ok u =>
      generalize (Config.new .Server).load w.f64 w.order o.config w.file = x
      obtain ⟨r, conf⟩ := x
      cases r with
      | err => simp
      | panic => simp
      | ok u2 =>
        simp only
        cases NftFirewall.new conf w.kernel w.nftOk with
        | mk ry k =>
          cases ry with
          | err => simp
          | panic => simp
          | ok fw =>
            simp only
            rcases fwdListenLog_cases o w ids.2 fs with (h | h) | ⟨fs', h, hn⟩ | ⟨fs', h, hn⟩
            · simp [h]
            · simp [h]
            · intro _
              simp [h, hn]
            · intro _
              simp [h, hn, ready_not_fwdRest]

/-! ## Where it fails -/

/-- **C118** (who is started along). Starting letmeinfwd.service starts its socket as well; starting letmeind.service does not start
letmeind.socket. -/
theorem C118_pulled (v : SysUnit) :
    (Pulled shippedDeps .fwd v ↔ v = .fwd ∨ v = .fwdSocket ∨ v = .nft) ∧
    (Pulled shippedDeps .lm v ↔ v ≠ .lmSocket) := by
  constructor
  · constructor
    · intro h
      induction h with
      | asked => exact .inl rfl
      | requires _ hm ih => rcases ih with rfl | rfl | rfl <;> simp [shippedDeps] at hm <;> simp [hm]
    · have h : ∀ x, x ∈ shippedDeps.requires .fwd → Pulled shippedDeps .fwd x := fun x hx => .requires .asked hx
      rintro (rfl | rfl | rfl)
      · exact .asked
      · exact h _ (by simp [shippedDeps])
      · exact h _ (by simp [shippedDeps])
  · constructor
    · intro h
      induction h with
      | asked => simp
      | @requires v w _ hm ih =>
        rintro rfl
        cases v <;> simp [shippedDeps] at hm
    · intro hv
      have h1 : Pulled shippedDeps .lm .fwd := .requires .asked (by simp [shippedDeps])
      cases v with
      | lm => exact .asked
      | lmSocket => exact absurd rfl hv
      | fwd => exact h1
      | fwdSocket => exact .requires h1 (by simp [shippedDeps])
      | nft => exact .requires h1 (by simp [shippedDeps])

/-- The command line of the units. -/
def readyLmOpts : LmOpts := { config := "/opt/letmein/etc/letmeind.conf".toList, limit := 8, noSystemd := false, seccomp := none }

def readyFwdOpts : FwdOpts :=
  { config := "/opt/letmein/etc/letmeind.conf".toList, limit := 8, noSystemd := false, seccomp := none, testMode := false }

/-- Which steps, and whether the program runs. -/
def logCheck {α : Type} (x : Logged α) : List StartStep × Bool :=
  (x.1, match x.2 with
    | .ok _ => true
    | _ => false)

theorem logCheck_ok {α : Type} {x : Logged α} {l : List StartStep} (h : logCheck x = (l, true)) : x.1 = l ∧ ∃ a, x.2 = .ok a := by
  obtain ⟨l', r⟩ := x
  cases r <;> simp [logCheck] at h
  exact ⟨h, _, rfl⟩

theorem logCheck_not {α : Type} {x : Logged α} {l : List StartStep} (h : logCheck x = (l, false)) : x.1 = l ∧ ∀ a, x.2 ≠ .ok a := by
  obtain ⟨l', r⟩ := x
  cases r <;> simp [logCheck] at h
  · exact ⟨h, fun a e => by cases e⟩
  · exact ⟨h, fun a e => by cases e⟩

/-- **C118 is false** (told too early). systemd is told that letmeind or letmeinfwd is up although it ends, here because the system call filter cannot
be installed, right afterwards. -/
theorem C118_negation_early :
    (∃ o w, Told (lmLog o w) ∧ ∀ p, lmMain o w ≠ .ok p) ∧ (∃ o w, Told (fwdLog o w) ∧ ∀ p, (fwdMain o w).2 ≠ .ok p) := by
  constructor
  · have h : logCheck (lmLog readyLmOpts { lmWorld with installOk := false }) = ([.runDir, .config, .ready, .listening, .pidFile], false) := by decide +kernel
    obtain ⟨h1, h2⟩ := logCheck_not h
    refine ⟨readyLmOpts, { lmWorld with installOk := false }, ?_, fun p => ?_⟩
    · unfold Told
      rw [h1]
      simp
    · rw [← C118_lm_result]
      exact h2 p
  · have h : logCheck (fwdLog readyFwdOpts { fwdWorld with sockets := .ok [.Unix 3], installOk := false }) =
        ([.accounts, .runDir, .config, .firewall, .ready, .listening, .pidFile], false) := by decide +kernel
    obtain ⟨h1, h2⟩ := logCheck_not h
    refine ⟨readyFwdOpts, { fwdWorld with sockets := .ok [.Unix 3], installOk := false }, ?_, fun p => ?_⟩
    · unfold Told
      rw [h1]
      simp
    · rw [← C118_fwd_result]
      exact h2 p

/-- **C118 is false** (never told). letmeind.service has been started without letmeind.socket, which it does not require (`C118_pulled`). letmeind binds
its own sockets and serves knocks, but systemd is never told; it takes the start for failed when its time is up. -/
theorem C118_negation_never : ∃ o w p, o.noSystemd = false ∧ w.sockets = .ok [] ∧ lmMain o w = .ok p ∧
    p.listening = { tcp := some (.bound 5800), udp := some (.bound 5800) } ∧ ¬ Told (lmLog o w) := by
  have h : logCheck (lmLog readyLmOpts { lmWorld with sockets := .ok [] }) =
      ([.runDir, .config, .listening, .pidFile, .filter, .tasks], true) := by decide +kernel
  have h' : (match (lmLog readyLmOpts { lmWorld with sockets := .ok [] }).2 with
    | .ok p => decide (p.listening = { tcp := some (.bound 5800), udp := some (.bound 5800) })
    | _ => false) = true := by decide +kernel
  obtain ⟨h1, p, h2⟩ := logCheck_ok h
  refine ⟨readyLmOpts, { lmWorld with sockets := .ok [] }, p, rfl, rfl, ?_, ?_, ?_⟩
  · rw [← C118_lm_result]
    exact h2
  · rw [h2] at h'
    exact of_decide_eq_true h'
  · unfold Told
    rw [h1]
    simp

/-- With the sockets of the units both get through everything, and systemd is told. -/
example : logCheck (lmLog readyLmOpts lmWorld) = ([.runDir, .config, .ready, .listening, .pidFile, .filter, .tasks], true) ∧
    logCheck (fwdLog readyFwdOpts { fwdWorld with sockets := .ok [.Unix 3] }) =
      ([.accounts, .runDir, .config, .firewall, .ready, .listening, .pidFile, .filter, .tasks], true) := by decide +kernel

/-- Without nft letmeinfwd does not tell systemd, so that letmeind is not started. -/
example : logCheck (fwdLog readyFwdOpts { fwdWorld with sockets := .ok [.Unix 3], nftOk := false }) = ([.accounts, .runDir, .config], false) := by
  decide +kernel

end Letmein.Props
