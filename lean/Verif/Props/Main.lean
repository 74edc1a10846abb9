import Verif.Model.Main
import Verif.Props.Conf
import Verif.Props.ConfShow
import Verif.Props.Knock
import Verif.Props.Seccomp
import Verif.Props.Daemon
import Verif.Props.RunDir
import Verif.Props.System

/-!
# Property C66: what runs is completely set up
-/

namespace Letmein.Spec

/-- The filter is as the mode says (on platforms with support): off, or every system call either gets the treatment of the mode or is one that an
entry of the list permits. -/
def InForce (allow : List Allow) (platform : Option SecPlatform) (mode : Seccomp) (f : Option SecFilter) : Prop :=
  ∀ p, platform = some p →
    match mode with
    | .Off => f = none
    | .Kill => ∃ g, f = some g ∧ ∀ s args, g.effect s args = .killed ∨
        (g.effect s args = .allowed ∧ ∃ a ∈ allow, ∃ g1, SecFilter.compile p [a] .Kill = .ok g1 ∧ g1.permits s args = true)
    | .Log => ∃ g, f = some g ∧ ∀ s args, g.effect s args = .logged ∨
        (g.effect s args = .allowed ∧ ∃ a ∈ allow, ∃ g1, SecFilter.compile p [a] .Log = .ok g1 ∧ g1.permits s args = true)

/-- The mode: the command line's, or else the configuration's. -/
def ModeIs (option : Option Seccomp) (conf : Config) (mode : Seccomp) : Prop :=
  option = some mode ∨ (option = none ∧ conf.seccomp = mode)

end Letmein.Spec

namespace Letmein.Props

open Letmein Prog Spec

theorem installFor_inForce {allow : List Allow} {platform : Option SecPlatform} {opt : Option Seccomp} {conf : Config} {ok : Bool}
    {f : Option SecFilter} (h : installFor allow platform opt conf ok = .ok f) {mode : Seccomp} (hm : ModeIs opt conf mode) :
    InForce allow platform mode f := by
  rintro p rfl
  have h2 := C62_mode_in_force_partial h
  have he : opt.getD conf.seccomp = mode := by
    rcases hm with rfl | ⟨rfl, rfl⟩ <;> rfl
  rw [he] at h2
  cases mode with
  | Off => exact h2
  | Kill =>
    obtain ⟨g, rfl, hc, hk⟩ := h2
    refine ⟨g, rfl, fun s args => ?_⟩
    cases hp : g.permits s args with
    | false => exact .inl (hk s args hp)
    | true => exact .inr ⟨by simp [SecFilter.effect, hp], C47_nothing_else hc s args hp⟩
  | Log =>
    obtain ⟨g, rfl, hc, hk⟩ := h2
    refine ⟨g, rfl, fun s args => ?_⟩
    cases hp : g.permits s args with
    | false => exact .inl (hk s args hp)
    | true => exact .inr ⟨by simp [SecFilter.effect, hp], C47_nothing_else hc s args hp⟩

theorem makePidfile_content (env : FsEnv) (path : Str) (chunks : List Nat) (pid : UInt32) (fs : Fs)
    (h : (makePidfile env path chunks pid fs).res = .ok ()) : fsRead (makePidfile env path chunks pid fs).fs path = some (pidFileText pid) := by
  have key : FsTri (fun _ => True) (fun _ => True) (fun _ fs => fsRead fs path = some (pidFileText pid)) (makePidfile env path chunks pid) := by
    unfold makePidfile
    refine fsTri_bind (M := fun _ fs => fsRead fs path = some []) ?_ fun _ => ?_
    · refine fsTri_call fun fs fs' _ hf => ⟨trivial, ?_⟩
      split at hf
      · injection hf with hf; subst hf; simp [fsRead, put_self]
      · split at hf
        · injection hf with hf; subst hf; simp [fsRead, put_self]
        · cases hf
    · intro fs hp
      have := writeAll_content chunks (fun i => env.ok (8 + i)) (pidFileText pid) [] fs hp
      exact ⟨by simp, by simpa using this.2⟩
  exact (key fs trivial).2 () h

/-- **C66** (letmeind). When letmeind's tasks start, then: its settings are those of its configuration file, which is a well-formed document; the
sockets it listens on are those that systemd passed for a configured protocol or bound to the configured port; its pid file names it; the
configured filter is in force; and no connection has been accepted yet. -/
theorem C66_letmeind {o : LmOpts} {w : LmWorld} (ho : IsOrder w.order) {p : LmProc} (h : lmMain o w = .ok p) {mode : Seccomp}
    (hm : ModeIs o.seccomp p.conf mode) :
    (∃ d, FileDoc w.file d ∧ ConfOf w.f64 d p.conf) ∧
    (∀ ss, w.sockets = .ok ss → (∀ x, p.listening.tcp = some x → p.conf.port.tcp = true ∧ LegitTcp p.conf.port o.noSystemd ss x) ∧
      (∀ x, p.listening.udp = some x → p.conf.port.udp = true ∧ LegitUdp p.conf.port o.noSystemd ss x)) ∧
    fsRead p.fs lmPidPath = some (pidFileText w.pid) ∧
    InForce letmeindAllow w.platform mode p.filter ∧
    p.state.sessions = [] ∧ p.state.accept = .accepting ∧ p.state.phase = .running := by
  unfold lmMain at h
  simp only [R.bind_eq_ok] at h
  obtain ⟨_, _, _, hload, l, hl, _, hpid, f, hf, st, hst, h⟩ := h
  injection h with h
  subst h
  have hload' : (Config.new .Server).load w.f64 w.order o.config w.file = (.ok (), ((Config.new .Server).load w.f64 w.order o.config w.file).2) :=
    Prod.ext hload rfl
  obtain ⟨d, hd⟩ := C54_server_needs_document rfl hload'
  refine ⟨⟨d, hd, (C54_loaded_is_described ho hd hload').1⟩, ?_, makePidfile_content _ _ _ _ _ hpid, installFor_inForce hf hm, ?_⟩
  · intro ss hss
    rw [hss] at hl
    exact C46_only_configured hl
  · unfold lmStart at hst
    split at hst
    · cases hst
    · injection hst with hst
      subst hst
      exact ⟨rfl, rfl, rfl⟩

/-! ## letmeinfwd -/

theorem fwdMain_ok {o : FwdOpts} {w : FwdWorld} {k : Kernel} {p : FwdProc} (h : fwdMain o w = (k, .ok p)) :
    ∃ ids d conf fw r, readEtcPasswd o.testMode w.passwd w.group = .ok ids ∧ d = fwdMakeRunSubdir w.fsEnv o.testMode ids.2 w.fs ∧ d.res = .ok () ∧
      (Config.new .Server).load w.f64 w.order o.config w.file = (.ok (), conf) ∧ NftFirewall.new conf w.kernel w.nftOk = (.ok fw, k) ∧
      fwdReady o w conf ids.2 d.fs = .ok r ∧ o.limit ≤ MAX_PERMITS ∧
      p = { setup := { conf, testMode := o.testMode, ids }, filter := r.2, fs := r.1, own := o.noSystemd
            life := { core := { phase := .running, fw, kernel := k }, accept := .accepting, permits := o.limit, exitMsg := false,
                      conns := [], nextId := 0 } } := by
  unfold fwdMain at h
  split at h
  · rename_i ids hids
    split at h
    · rename_i u1 st fs hdir
      split at h
      · rename_i u2 conf hload
        split at h
        · rename_i fw k' hnew
          simp only [Prod.mk.injEq] at h
          obtain ⟨rfl, h⟩ := h
          have h' := (R.bind_eq_ok (x := fwdReady o w conf ids.2 fs)).1 h
          obtain ⟨r, hr, h'⟩ := h'
          split at h'
          · cases h'
          · rename_i hlim
            injection h' with h'
            exact ⟨ids, _, conf, fw, r, hids, rfl, by rw [hdir], hload, hnew, by rw [hdir]; exact hr, by omega, h'.symm⟩
        · simp at h
        · simp at h
      · simp at h
      · simp at h
    · simp at h
    · simp at h
  · simp at h
  · simp at h

/-- What `fwdMain` ends in is what `lifeStart` ends in, so that all theorems about the life of letmeinfwd hold from `main` on. -/
theorem fwdMain_lifeStart {o : FwdOpts} {w : FwdWorld} {k : Kernel} {p : FwdProc} (h : fwdMain o w = (k, .ok p)) :
    lifeStart o.testMode w.passwd w.group p.setup.conf w.kernel w.nftOk o.limit (fun _ => .ok (.systemd 0)) = (k, .ok (p.setup, p.life)) := by
  obtain ⟨ids, d, conf, fw, r, hids, _, _, _, hnew, _, hlim, rfl⟩ := fwdMain_ok h
  unfold lifeStart
  rw [hids]
  simp only [hnew]
  rw [if_neg (by omega)]

/-- **C66** (letmeinfwd). When letmeinfwd's tasks start, then: its settings are those of its configuration file, which is a well-formed
document; the ids of letmeind are those of the account files; its pid file names it; the configured filter is in force; no connection has been
accepted yet; the socket is a usable one from systemd, which has been notified, or only root and letmeind's group can connect to it, and the group can. -/
theorem C66_letmeinfwd {o : FwdOpts} {w : FwdWorld} (ho : IsOrder w.order) {k : Kernel} {p : FwdProc} (h : fwdMain o w = (k, .ok p))
    (htest : o.testMode = false) (h0 : ∀ n, w.fs fwdSockPath = some n → n.kind ≠ .sock true) {mode : Seccomp} (hm : ModeIs o.seccomp p.setup.conf mode) :
    (∃ d, FileDoc w.file d ∧ ConfOf w.f64 d p.setup.conf) ∧
    p.setup.testMode = false ∧ readEtcPasswd false w.passwd w.group = .ok p.setup.ids ∧
    fsRead p.fs fwdPidPath = some (pidFileText w.pid) ∧
    InForce letmeinfwdAllow w.platform mode p.filter ∧
    p.life.conns = [] ∧ p.life.accept = .accepting ∧ p.life.core.phase = .running ∧
    ((o.noSystemd = false ∧ w.notifyOk = true ∧ ∃ fd rest, w.sockets = .ok (.Unix fd :: rest) ∧ w.usable fd = true) ∨
      (Closed p.fs fwdDirPath fwdSockPath p.setup.ids.2 ∧
        ∀ uid gids, p.setup.ids.2 ∈ gids → CanConnect p.fs fwdDirPath fwdSockPath uid gids)) := by
  obtain ⟨ids, d, conf, fw, r, hids, rfl, hd, hload, _, hr, _, rfl⟩ := fwdMain_ok h
  rw [htest] at hids hd hr
  obtain ⟨dc, hdc⟩ := C54_server_needs_document rfl hload
  unfold fwdReady fwdListen at hr
  rw [htest] at hr
  simp only [R.bind_eq_ok] at hr
  obtain ⟨fs1, hlis, _, hpid, f, hf, hr⟩ := hr
  injection hr with hr
  subst hr
  refine ⟨⟨dc, hdc, (C54_loaded_is_described ho hdc hload).1⟩, htest, hids, makePidfile_content _ _ _ _ _ hpid, installFor_inForce hf hm,
    rfl, rfl, rfl, ?_⟩
  by_cases hns : o.noSystemd = false
  · left
    refine ⟨hns, ?_⟩
    rw [hns] at hlis
    simp only [Bool.not_false, if_true] at hlis
    split at hlis
    · rename_i fd rest hs
      split at hlis
      · cases hlis
      · split at hlis
        · cases hlis
        · simp_all
    · cases hlis
    · cases hlis
  · right
    have hns' : o.noSystemd = true := by simpa using hns
    rw [hns'] at hlis
    simp only [Bool.not_true, Bool.false_eq_true, if_false] at hlis
    split at hlis
    · rename_i u st fs' hb
      injection hlis with hlis
      subst hlis
      have hg := ((fwdMakeRunSubdir_tri w.fsEnv ids.2 w.fs h0).2 () hd).2
      have hb2 := (fwdBindSocket_tri w.fsEnv ids.2 _ hg).2 () (by rw [hb])
      rw [hb] at hb2
      have hpres := makePidfile_pres (P := fun fs => Guarded ids.2 fs ∧ fs fwdSockPath = some ⟨.sock true, 0, ids.2, 0o660⟩)
        (env := w.fsEnv) (path := fwdPidPath) (chunks := w.chunks) (pid := w.pid) fun fs c u g m h =>
          ⟨guarded_put h.1 (by decide), by rw [put_other _ _ (by decide)]; exact h.2⟩
      have h3 := (hpres fs' hb2).2 () hpid
      refine ⟨closed_of_guarded h3.1, fun uid gids hin => ?_⟩
      obtain ⟨⟨kd, hk⟩, hsock⟩ := h3
      refine ⟨_, _, hk, hsock, rfl, ?_, ?_⟩
      all_goals
        by_cases hu : uid = 0
        · exact .inl hu
      · exact .inr (.inr (.inl ⟨hu, hin, show (0o750 : Nat) / 8 &&& 1 ≠ 0 by decide⟩))
      · exact .inr (.inr (.inl ⟨hu, hin, show (0o660 : Nat) / 8 &&& 2 ≠ 0 by decide⟩))
    · cases hlis
    · cases hlis

/-! ## letmein -/

theorem clientMain_cases (o : ClientOpts) (w : ClientWorld) :
    (clientMain o w).1 = [] ∨
    (o.version = false ∧ ∃ conf f, (Config.new .Client).load w.f64 w.order o.config w.file = (.ok (), conf) ∧
      installFor letmeinAllow w.platform o.seccomp conf w.installOk = .ok f ∧
      clientMain o w = (f.toList.map .filter ++ (clientCommand o w conf).1, (clientCommand o w conf).2)) := by
  unfold clientMain
  cases hv : o.version with
  | true => left; rfl
  | false =>
    simp only [Bool.false_eq_true, if_false]
    unfold clientAsyncMain
    split
    · rename_i conf hl
      split
      · rename_i f hf
        exact .inr ⟨trivial, conf, f, hl, hf, rfl⟩
      · exact .inl rfl
      · exact .inl rfl
    · exact .inl rfl
    · exact .inl rfl

theorem clientCommand_no_filter (o : ClientOpts) (w : ClientWorld) (conf : Config) (g : SecFilter) : ClientEv.filter g ∉ (clientCommand o w conf).1 := by
  unfold clientCommand
  split
  · simp
  · split <;> simp
  · simp

/-- **C66** (client, order). Whatever the client does is done under the configured filter: the filter is the first thing, there is no later one, and if it
cannot be installed nothing is done. The mode is that of the option, or of the file as it was loaded. -/
theorem C66_client_filter_first {o : ClientOpts} {w : ClientWorld} (h : (clientMain o w).1 ≠ []) :
    ∃ conf f rest, (Config.new .Client).load w.f64 w.order o.config w.file = (.ok (), conf) ∧
      (clientMain o w).1 = f.toList.map .filter ++ rest ∧ (∀ g, ClientEv.filter g ∉ rest) ∧
      ∀ mode, ModeIs o.seccomp conf mode → InForce letmeinAllow w.platform mode f := by
  rcases clientMain_cases o w with h1 | ⟨_, conf, f, hl, hf, he⟩
  · exact absurd h1 h
  · exact ⟨conf, f, _, hl, by rw [he], clientCommand_no_filter o w conf, fun mode hm => installFor_inForce hf hm⟩

/-- **C66** (client, network). The client touches the network, also for name resolution, only for the subcommand `knock`, with a
configuration that a well-formed file describes, and for a user whose key and a resource for whose port this configuration has. In particular it never does with an
unreadable or malformed file, which it takes for an empty one (C41). -/
theorem C66_client_network {o : ClientOpts} {w : ClientWorld} (ho : IsOrder w.order) {a : NetAct} (h : ClientEv.net a ∈ (clientMain o w).1) :
    ∃ d conf host port user sp tcp udp v4 v6 u k, FileDoc w.file d ∧ ConfOf w.f64 d conf ∧
      o.command = some (.knock host port user sp tcp udp v4 v6) ∧ (user = some u ∨ (user = none ∧ conf.defaultUser = u)) ∧ conf.key u = some k ∧
      (∃ id r, (id, r) ∈ conf.resources ∧ r.port = port ∧ r.containsUser u = true) ∧
      (∀ mode, ModeIs o.seccomp conf mode → ∃ f rest, (clientMain o w).1 = f.toList.map .filter ++ rest ∧ InForce letmeinAllow w.platform mode f) := by
  rcases clientMain_cases o w with h1 | ⟨_, conf, f, hl, hf, he⟩
  · rw [h1] at h; cases h
  · have hn : ClientEv.net a ∈ (clientCommand o w conf).1 := by
      rw [he] at h
      rcases List.mem_append.1 h with h | h
      · obtain ⟨_, _, hx⟩ := List.mem_map.1 h; cases hx
      · exact h
    unfold clientCommand at hn
    split at hn
    · rename_i host port user sp tcp udp v4 v6 hc
      simp only [List.mem_map, ClientEv.net.injEq, exists_eq_right] at hn
      let u := user.getD conf.defaultUser
      have hu : user = some u ∨ (user = none ∧ conf.defaultUser = u) := by
        cases user with
        | none => exact .inr ⟨rfl, rfl⟩
        | some x => exact .inl rfl
      have hne : ¬ (conf.key u = none ∨ ∀ id r, (id, r) ∈ conf.resources → r.port = port → r.containsUser u = false) := by
        intro hno
        rw [C45_nothing_without_key_and_resource w.parseIp w.dns w.opens w.exchange conf _ port user o.dns o.dnsCrypt u hu hno] at hn
        cases hn
      obtain ⟨hk, hr⟩ := not_or.1 hne
      obtain ⟨k, hk⟩ := Option.ne_none_iff_exists'.1 hk
      have hdoc : ∃ d, FileDoc w.file d := by
        rcases load_ok_iff.1 hl with ⟨ini, c1, h3, -⟩ | ⟨_, _, rfl⟩
        · obtain ⟨d, hd, -⟩ := newFromFile_ok h3
          exact ⟨d, hd⟩
        · cases hk
      obtain ⟨d, hd⟩ := hdoc
      refine ⟨d, conf, host, port, user, sp, tcp, udp, v4, v6, u, k, hd, (C54_loaded_is_described ho hd hl).1, hc, hu, hk, ?_,
        fun mode hm => ⟨f, _, by rw [he], installFor_inForce hf hm⟩⟩
      refine Classical.byContradiction fun hx => hr fun id r h1 h2 => ?_
      cases h3 : r.containsUser u with
      | false => rfl
      | true => exact absurd ⟨id, r, h1, h2, h3⟩ hx
    · split at hn <;> simp at hn
    · simp at hn

/-- **C66** (client, success). If the command line `letmein knock …` succeeds, then a connection to the server was opened and the exchange over it, with
the configured key of the user and for a resource of the port, ended in success. -/
theorem C66_client_success {o : ClientOpts} {w : ClientWorld} (ho : IsOrder w.order) (hv : o.version = false) {host : Str} {port : UInt16}
    {user : Option UserId} {sp : Option UInt16} {tcp udp v4 v6 : Bool} (hc : o.command = some (.knock host port user sp tcp udp v4 v6))
    (hrand : ∀ u r k act, w.exchange u r k act ≠ .panic) (h : (clientMain o w).2 = .ok ()) :
    ∃ d conf u k r, FileDoc w.file d ∧ ConfOf w.f64 d conf ∧ (user = some u ∨ (user = none ∧ conf.defaultUser = u)) ∧ conf.key u = some k ∧
      (∃ res, (r, res) ∈ conf.resources ∧ res.port = port ∧ res.containsUser u = true) ∧
      ∃ act addr, ClientEv.net act ∈ (clientMain o w).1 ∧ Connection ⟨host, AddrMode.ofFlags v4 v6, sp, tcp, udp⟩ conf addr act ∧
        w.opens act = true ∧ w.exchange u r k act = .ok () := by
  have hcase : ∃ (conf : Config) (f : Option SecFilter), (Config.new .Client).load w.f64 w.order o.config w.file = (.ok (), conf) ∧
      clientMain o w = (f.toList.map ClientEv.filter ++ (clientCommand o w conf).1, (clientCommand o w conf).2) := by
    unfold clientMain at h ⊢
    rw [hv] at h ⊢
    simp only [Bool.false_eq_true, if_false] at h ⊢
    unfold clientAsyncMain at h ⊢
    split at h
    · rename_i conf hl
      split at h
      · rename_i f hf
        simp only [hl]
        exact ⟨conf, f, rfl, rfl⟩
      · cases h
      · cases h
    · cases h
    · cases h
  obtain ⟨conf, f, hl, he⟩ := hcase
  rw [he] at h ⊢
  have hcmd : clientCommand o w conf =
      ((runKnock w.parseIp w.dns w.opens w.exchange conf ⟨host, AddrMode.ofFlags v4 v6, sp, tcp, udp⟩ port user o.dns o.dnsCrypt).1.map .net,
        (runKnock w.parseIp w.dns w.opens w.exchange conf ⟨host, AddrMode.ofFlags v4 v6, sp, tcp, udp⟩ port user o.dns o.dnsCrypt).2) := by
    unfold clientCommand; rw [hc]
  rw [hcmd] at h ⊢
  simp only at h ⊢
  obtain ⟨u, hu, hue⟩ : ∃ u, (user = some u ∨ (user = none ∧ conf.defaultUser = u)) ∧ user.getD conf.defaultUser = u := by
    cases user with
    | none => exact ⟨_, .inr ⟨rfl, rfl⟩, rfl⟩
    | some x => exact ⟨x, .inl rfl, rfl⟩
  have hk : ∃ k r, conf.key u = some k ∧ conf.resourceIdByPort port (some u) = some r := by
    unfold runKnock at h
    simp only [hue] at h
    split at h
    · cases h
    · rename_i k hk
      split at h
      · cases h
      · rename_i r hr
        exact ⟨k, r, hk, hr⟩
  obtain ⟨k, r, hk, hr⟩ := hk
  have hdoc : ∃ d, FileDoc w.file d := by
    rcases load_ok_iff.1 hl with ⟨ini, c1, h3, -⟩ | ⟨_, _, rfl⟩
    · obtain ⟨d, hd, -⟩ := newFromFile_ok h3
      exact ⟨d, hd⟩
    · cases hk
  obtain ⟨d, hd⟩ := hdoc
  obtain ⟨res, h1, h2, h3⟩ := resourceIdByPort_sound hr
  refine ⟨d, conf, u, k, r, hd, (C54_loaded_is_described ho hd hl).1, hu, hk, ⟨res, h1, h2, h3 u rfl⟩, ?_⟩
  obtain ⟨a1, a2, a3, a4, a5, _⟩ := C45_families_and_verdict w.parseIp w.dns w.opens (exchange := w.exchange) (C38_loaded_port_enabled ho hd hl) host v4 v6 sp tcp
    udp port user o.dns o.dnsCrypt hu hk hr (hrand u r k)
  have hok : ∃ m, KnockedOk ⟨host, AddrMode.ofFlags v4 v6, sp, tcp, udp⟩ conf w.opens (w.exchange u r k)
      (runKnock w.parseIp w.dns w.opens w.exchange conf ⟨host, AddrMode.ofFlags v4 v6, sp, tcp, udp⟩ port user o.dns o.dnsCrypt).1 m := by
    cases hp : w.parseIp host with
    | none =>
      cases h4 : v4 <;> cases h6 : v6 <;> rw [h4, h6] at h a1 a2 a3 a4
      · rcases (a4 rfl rfl hp).2.2.1 h with h | h
        · exact ⟨_, h⟩
        · exact ⟨_, h⟩
      · exact ⟨_, (a2 rfl rfl).2.2.1 h⟩
      · exact ⟨_, (a1 rfl rfl).2.2.1 h⟩
      · exact ⟨_, ((a3 rfl rfl).1.1 h).1⟩
    | some a =>
      cases h4 : v4 <;> cases h6 : v6 <;> rw [h4, h6] at h a1 a2 a3 a4 a5
      · obtain ⟨m, hm⟩ : ∃ m, InFamily m a := by
          cases a with
          | v4 x => exact ⟨.Ipv4, .v4 x⟩
          | v6 x => exact ⟨.Ipv6, .v6 x⟩
        exact ⟨m, ((a5 a hp).2 rfl rfl m hm).2.1 h⟩
      · exact ⟨_, (a2 rfl rfl).2.2.1 h⟩
      · exact ⟨_, (a1 rfl rfl).2.2.1 h⟩
      · exact ⟨_, ((a3 rfl rfl).1.1 h).1⟩
  obtain ⟨m, act, hact, addr, _, hconn, hop, hex⟩ := hok
  exact ⟨act, addr, List.mem_append_right _ (List.mem_map_of_mem hact), hconn, hop, hex⟩

/-- **C66** (client, `gen-key`). `letmein gen-key` does nothing on the network; if it succeeds it prints exactly one line, an entry for a `[KEYS]` section
that assigns to the user the key that the random generator delivered. -/
theorem C66_client_genkey {o : ClientOpts} {w : ClientWorld} {user : Option UserId} (hc : o.command = some (.genKey user)) :
    (∀ a, ClientEv.net a ∉ (clientMain o w).1) ∧
    (o.version = false → (clientMain o w).2 = .ok () → ∃ f line name value key u conf, (clientMain o w).1 = f ++ [.print line] ∧
      (∀ x ∈ f, ∃ g, x = .filter g) ∧ (Config.new .Client).load w.f64 w.order o.config w.file = (.ok (), conf) ∧
      (user = some u ∨ (user = none ∧ conf.defaultUser = u)) ∧ w.rand = some key ∧
      AssignLine line name value ∧ IdText name u.raw ∧ KeyText value key) := by
  have hcmd : ∀ conf, clientCommand o w conf = match secureRandom KEY_SIZE w.rand with
      | .ok key => ([.print (genkeyLine conf user key)], .ok ())
      | .err => ([], .err)
      | .panic => ([], .panic) := by
    intro conf; unfold clientCommand; simp only [hc]; cases secureRandom KEY_SIZE w.rand <;> rfl
  constructor
  · intro a ha
    rcases clientMain_cases o w with h1 | ⟨_, conf, f, hl, hf, he⟩
    · rw [h1] at ha; cases ha
    · rw [he, hcmd] at ha
      rcases List.mem_append.1 ha with h | h
      · obtain ⟨_, _, hx⟩ := List.mem_map.1 h; cases hx
      · split at h <;> simp at h
  · intro hv h
    unfold clientMain at h ⊢
    rw [hv] at h ⊢
    simp only [Bool.false_eq_true, if_false] at h ⊢
    unfold clientAsyncMain at h ⊢
    split at h
    · rename_i conf hl
      split at h
      · rename_i f hf
        rw [hl]
        simp only
        rw [hcmd] at h ⊢
        cases hs : secureRandom KEY_SIZE w.rand with
        | err => rw [hs] at h; cases h
        | panic => rw [hs] at h; cases h
        | ok key =>
          simp only
          obtain ⟨u, hu⟩ : ∃ u, user = some u ∨ (user = none ∧ conf.defaultUser = u) := by
            cases user with
            | none => exact ⟨_, .inr ⟨rfl, rfl⟩⟩
            | some x => exact ⟨x, .inl rfl⟩
          obtain ⟨name, value, h1, h2, h3⟩ := C39_line_is_entry hs hu
          refine ⟨_, _, name, value, key, u, conf, rfl, ?_, rfl, hu, ?_, h1, h2, h3⟩
          · intro x hx
            obtain ⟨g, _, rfl⟩ := List.mem_map.1 hx
            exact ⟨g, rfl⟩
          · exact secureRandom_ok _ _ _ hs
      · cases h
      · cases h
    · cases h
    · cases h

/-! ## The programs start and do something -/

/-- A configuration for the servers, with a filter. -/
def mainText : Str :=
  ("[GENERAL]\nport = 5800 / udp, tcp\nseccomp = kill\n[NFTABLES]\nfamily = inet\ntable = filter\nchain-input = LETMEIN-INPUT\n" ++
  "[KEYS]\n000000A1 = 00112233445566778899aabbccddeeff00112233445566778899AABBCCDDEEFF\n[RESOURCES]\n00000007 = port: 22\n").toList

/-- Everything works for letmeind: an outdated pid file is there, systemd passes the UDP socket only. -/
def lmWorld : LmWorld :=
  { fsEnv := lmEnv, fs := oldPidFs, chunks := [], pid := 4711, f64 := noF64, order := id, file := .text mainText
    sockets := .ok [.Udp 3, .Tcp 4], usable := fun _ => true, notifyOk := true, bindTcpOk := true, bindUdpOk := true
    platform := some { x86_64 := true, linux := true }, installOk := true }

def lmProcExample : Option LmProc :=
  match lmMain { config := "/opt/letmein/etc/letmeind.conf".toList, limit := 8, noSystemd := false, seccomp := none } lmWorld with
  | .ok p => some p
  | _ => none

/-- letmeind starts with both sockets and with the filter that kills. -/
example : (lmProcExample.map fun p => (p.conf.port.port, p.conf.seccomp, p.listening.tcp.isSome, p.listening.udp.isSome)) =
      some (5800, .Kill, true, true) ∧
    (lmProcExample.map fun p => p.filter.isSome) = some true := by decide +kernel

/-- Everything works for letmeinfwd, which has to use its own socket in a directory that everybody may use. -/
def fwdWorld : FwdWorld :=
  { passwd := some lifePasswd, group := some lifeGroup, fsEnv := fwdEnv, fs := staleFs, chunks := [], pid := 99, f64 := noF64, order := id
    file := .text mainText, kernel := fwKernel, nftOk := true, sockets := .err, usable := fun _ => true, notifyOk := true
    platform := some { x86_64 := true, linux := true }, installOk := true }

def fwdProcExample : Option FwdProc :=
  match fwdMain { config := "/opt/letmein/etc/letmeind.conf".toList, limit := 8, noSystemd := true, seccomp := none, testMode := false } fwdWorld with
  | (_, .ok p) => some p
  | _ => none

/-- letmeinfwd starts, with the filter that kills, its socket for the group of letmeind. -/
example : (fwdProcExample.map fun p => (p.setup.ids, p.setup.conf.seccomp, p.filter.isSome)) = some ((997, 996), .Kill, true) ∧
    (fwdProcExample.map fun p => (p.fs fwdSockPath).map (·.mode)) = some (some 0o660) := by decide +kernel

/-- The client's side: the name has an IPv4 address only, the server accepts. -/
def knockWorld (text : FileContent) (rand : Option (Arr KEY_SIZE)) : ClientWorld :=
  { f64 := noF64, order := id, file := text, platform := some { x86_64 := true, linux := true }, installOk := true
    parseIp := fun _ => none, dns := fun q => if q.record = .A then some [.A ⟨[10, 0, 0, 1], rfl⟩] else none
    opens := fun _ => true, exchange := fun _ _ _ _ => .ok (), rand := rand }

def knockOpts (cmd : ClientCommand) : ClientOpts :=
  { config := "/opt/letmein/etc/letmein.conf".toList, command := some cmd, dns := ⟨true, false, false, false⟩, dnsCrypt := ⟨false, false, false⟩
    seccomp := some .Kill, version := false }

/-- What can be compared of an event. -/
def evKind : ClientEv → Option (NetAct ⊕ Str)
  | .filter _ => none
  | .net a => some (.inl a)
  | .print l => some (.inr l)

def knockCmd : ClientCommand := .knock "server".toList 22 (some ⟨0xA1⟩) none false false true false

/-- A knock that succeeds: filter, query, connection; the same with a broken file: nothing but the filter, and an error. -/
example : ((clientMain (knockOpts knockCmd) (knockWorld (.text mainText) none)).1.map evKind,
      (clientMain (knockOpts knockCmd) (knockWorld (.text mainText) none)).2) =
    ([none, some (.inl (.dns ⟨.system, .system, "server".toList, .A⟩)), some (.inl (.tcp (.v4 ⟨[10, 0, 0, 1], rfl⟩) 5800))], .ok ()) ∧
    ((clientMain (knockOpts knockCmd) (knockWorld (.text ("?\n".toList ++ mainText)) none)).1.map evKind,
      (clientMain (knockOpts knockCmd) (knockWorld (.text ("?\n".toList ++ mainText)) none)).2) = ([none], .err) := by decide +kernel

/-- `gen-key` prints a line. -/
example : ((clientMain (knockOpts (.genKey (some ⟨0xA1⟩))) (knockWorld (.text mainText) (some exampleKey))).1.map evKind,
      (clientMain (knockOpts (.genKey (some ⟨0xA1⟩))) (knockWorld (.text mainText) (some exampleKey))).2) =
    ([none, some (.inr "000000A1 = 00112233445566778899AABBCCDDEEFF00112233445566778899AABBCCDDEEFF".toList)], .ok ()) := by decide +kernel

end Letmein.Props
