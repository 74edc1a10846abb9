import Verif.Props.Tight
import Verif.Props.EndToEnd
import Verif.Props.Startup

/-!
# Properties: the daemons start

C92: with a valid configuration, the account and what is needed in the run directory, and system calls that work, both daemons come up. That they do
not come up wrongly is C66 and C76.
-/

namespace Letmein.Spec

/-- The path is free or names a directory. -/
def DirFits (fs : Fs) (path : Str) : Prop := ∀ n, fs path = some n → n.kind = .dir
/-- The path is free or names a regular file. -/
def FileFits (fs : Fs) (path : Str) : Prop := ∀ n, fs path = some n → ∃ t, n.kind = .file t
/-- The path is free or names a socket. -/
def SockFits (fs : Fs) (path : Str) : Prop := ∀ n, fs path = some n → ∃ live, n.kind = .sock live

/-- The socket for letmeinfwd is there: with systemd, the first one passed is a usable Unix socket and systemd can be notified; otherwise the path is
free or names an old socket. -/
def CanListenUnix (o : FwdOpts) (w : FwdWorld) : Prop :=
  (o.noSystemd = false ∧ ∃ fd rest, w.sockets = .ok (.Unix fd :: rest) ∧ w.usable fd = true ∧ w.notifyOk = true) ∨
  (o.noSystemd = true ∧ SockFits w.fs fwdSockPath)

/-- letmeind's account exists. -/
def HasAccount (passwd group : Option Str) : Prop :=
  ∃ pw gr uid gid, passwd = some pw ∧ AccountId pw "letmeind".toList uid ∧ uid < 2 ^ 32 ∧ group = some gr ∧ AccountId gr "letmeind".toList gid ∧ gid < 2 ^ 32

end Letmein.Spec

namespace Letmein.Props

open Letmein Prog Spec

/-- The code succeeds from every state that satisfies `P`, and reaches one that satisfies `Q`. -/
def FsGo {α : Type} (P : Fs → Prop) (Q : α → Fs → Prop) (p : FsM α) : Prop := ∀ fs, P fs → ∃ a, (p fs).res = .ok a ∧ Q a (p fs).fs

theorem fsGo_bind {α β : Type} {P : Fs → Prop} {M : α → Fs → Prop} {Q : β → Fs → Prop} {p : FsM α} {f : α → FsM β} (h1 : FsGo P M p)
    (h2 : ∀ a, FsGo (M a) Q (f a)) : FsGo P Q (p >>= f) := by
  intro fs hp
  obtain ⟨a, e, hm⟩ := h1 fs hp
  obtain ⟨b, e2, hq⟩ := h2 a _ hm
  refine ⟨b, ?_, ?_⟩
  · show (FsM.bind p f fs).res = _
    unfold FsM.bind
    simp only [e]
    exact e2
  · show Q b (FsM.bind p f fs).fs
    unfold FsM.bind
    simp only [e]
    exact hq

theorem fsGo_pure {α : Type} {P : Fs → Prop} {Q : α → Fs → Prop} (a : α) (h : ∀ fs, P fs → Q a fs) : FsGo P Q (pure a : FsM α) :=
  fun fs hp => ⟨a, rfl, h fs hp⟩

theorem fsGo_stat {P : Fs → Prop} (path : Str) : FsGo P (fun n fs => P fs ∧ fs path = n) (fsStat path) :=
  fun fs hp => ⟨_, rfl, hp, rfl⟩

theorem fsGo_call {P : Fs → Prop} {Q : Unit → Fs → Prop} {f : Fs → Option Fs} (h : ∀ fs, P fs → ∃ fs', f fs = some fs' ∧ Q () fs') :
    FsGo P Q (fsCall true f) := by
  intro fs hp
  obtain ⟨fs', e, hq⟩ := h fs hp
  refine ⟨(), ?_, ?_⟩ <;> simp only [fsCall, if_true, e]
  exact hq

/-- The state agrees with `fs0` outside the paths. -/
def AgreesOutside (fs0 : Fs) (paths : List Str) (fs : Fs) : Prop := ∀ q, q ∉ paths → fs q = fs0 q

theorem agrees_put {fs0 fs : Fs} {paths : List Str} {path : Str} (n : Option Node) (hp : path ∈ paths) (h : AgreesOutside fs0 paths fs) :
    AgreesOutside fs0 paths (fs.put path n) := by
  intro q hq
  rw [put_other _ _ (by rintro rfl; exact hq hp)]
  exact h q hq

theorem createDir_go {fs0 : Fs} {path : Str} (env : FsEnv) (hd : DirFits fs0 path) :
    FsGo (fun fs => fs = fs0) (fun _ fs => AgreesOutside fs0 [path] fs ∧ ∃ n, fs path = some n) (createDirIfNotExists env true path) := by
  unfold createDirIfNotExists
  refine fsGo_bind (fsGo_stat path) fun n => ?_
  cases n with
  | none =>
    refine fsGo_call fun fs ⟨h1, h2⟩ => ?_
    rw [h2]
    refine ⟨_, rfl, agrees_put _ (by simp) (by subst h1; exact fun _ _ => rfl), _, put_self _ _ _⟩
  | some n =>
    intro fs ⟨h1, h2⟩
    subst h1
    have hk := hd n h2
    refine ⟨(), ?_, ?_⟩
    · simp only [hk, ne_eq, not_true_eq_false, if_false]; rfl
    · simp only [hk, ne_eq, not_true_eq_false, if_false]
      exact ⟨fun _ _ => rfl, n, h2⟩

theorem writeAll_go {fs0 : Fs} {path : Str} (chunks : List Nat) (text : Str) :
    FsGo (fun fs => AgreesOutside fs0 [path] fs ∧ ∃ c u g m, fs path = some ⟨.file c, u, g, m⟩) (fun _ _ => True) (writeAll (fun _ => true) path chunks text) := by
  induction chunks generalizing text with
  | nil =>
    cases text with
    | nil => exact fsGo_pure () fun _ _ => trivial
    | cons c text =>
      simp only [writeAll, writeCall]
      refine fsGo_call fun fs ⟨_, c', u, g, m, h⟩ => ?_
      simp only [h]
      exact ⟨_, rfl, trivial⟩
  | cons k chunks ih =>
    cases text with
    | nil => exact fsGo_pure () fun _ _ => trivial
    | cons c text =>
      simp only [writeAll, writeCall]
      refine fsGo_bind (fsGo_call fun fs ⟨hx, c', u, g, m, h⟩ => ?_) fun _ => ih _
      simp only [h]
      exact ⟨_, rfl, agrees_put _ (by simp) hx, _, _, _, _, put_self _ _ _⟩

theorem makePidfile_go {fs0 : Fs} {path : Str} (env : FsEnv) (henv : ∀ i, env.ok i = true) (chunks : List Nat) (pid : UInt32) (hf : FileFits fs0 path) :
    FsGo (fun fs => fs = fs0) (fun _ _ => True) (makePidfile env path chunks pid) := by
  unfold makePidfile
  rw [henv 7]
  have : (fun i => env.ok (8 + i)) = fun _ => true := funext fun i => henv _
  rw [this]
  refine fsGo_bind (M := fun _ fs => AgreesOutside fs0 [path] fs ∧ ∃ c u g m, fs path = some ⟨.file c, u, g, m⟩) ?_ fun _ => writeAll_go _ _
  refine fsGo_call fun fs h => ?_
  subst h
  cases hn : fs path with
  | none => exact ⟨_, rfl, agrees_put _ (by simp) (fun _ _ => rfl), _, _, _, _, put_self _ _ _⟩
  | some n =>
    obtain ⟨t, ht⟩ := hf n hn
    simp only [ht]
    exact ⟨_, rfl, agrees_put _ (by simp) (fun _ _ => rfl), _, _, _, _, put_self _ _ _⟩

theorem setOwnerMode_go {fs0 : Fs} {paths : List Str} {path : Str} (hp : path ∈ paths) (uid gid : UInt32) (mode : Nat) :
    FsGo (fun fs => AgreesOutside fs0 paths fs ∧ ∃ n, fs path = some n) (fun _ fs => AgreesOutside fs0 paths fs) (setOwnerMode true true path uid gid mode) := by
  unfold setOwnerMode
  refine fsGo_bind (fsGo_stat path) fun n => ?_
  cases n with
  | none => rintro fs ⟨⟨_, n, h⟩, h'⟩; rw [h] at h'; cases h'
  | some n =>
    refine fsGo_bind (M := fun _ fs => AgreesOutside fs0 paths fs ∧ ∃ n, fs path = some n) (fsGo_call fun fs ⟨⟨hx, m, h⟩, _⟩ => ?_) fun _ =>
      fsGo_call fun fs ⟨hx, m, h⟩ => ?_
    · rw [h]; exact ⟨_, rfl, agrees_put _ hp hx, _, put_self _ _ _⟩
    · rw [h]; exact ⟨_, rfl, agrees_put _ hp hx⟩

theorem fwdMakeRunSubdir_go {fs0 : Fs} (env : FsEnv) (henv : ∀ i, env.ok i = true) (testMode : Bool) (gid : UInt32) (hd : DirFits fs0 fwdDirPath) :
    FsGo (fun fs => fs = fs0) (fun _ fs => AgreesOutside fs0 [fwdDirPath] fs) (fwdMakeRunSubdir env testMode gid) := by
  unfold fwdMakeRunSubdir
  rw [henv 0, henv 1, henv 2]
  refine fsGo_bind (createDir_go env hd) fun _ => ?_
  cases testMode with
  | true => exact fsGo_pure () fun _ h => h.1
  | false => exact setOwnerMode_go (by simp) 0 gid _

theorem fwdBindSocket_go {fs0 : Fs} (env : FsEnv) (henv : ∀ i, env.ok i = true) (testMode : Bool) (gid : UInt32) (hs : SockFits fs0 fwdSockPath) :
    FsGo (fun fs => fs = fs0) (fun _ fs => AgreesOutside fs0 [fwdSockPath] fs) (fwdBindSocket env testMode gid) := by
  unfold fwdBindSocket
  rw [henv 4, henv 5, henv 6]
  refine fsGo_bind (M := fun _ fs => AgreesOutside fs0 [fwdSockPath] fs ∧ fs fwdSockPath = none) ?_ fun _ =>
    fsGo_bind (M := fun _ fs => AgreesOutside fs0 [fwdSockPath] fs ∧ ∃ n, fs fwdSockPath = some n) (fsGo_call fun fs ⟨hx, h⟩ => ?_) fun _ => ?_
  · unfold fwdRemoveSocket
    rw [henv 3]
    refine fsGo_bind (fsGo_stat _) fun n => ?_
    cases n with
    | none => exact fsGo_pure () fun fs ⟨h1, h2⟩ => by subst h1; exact ⟨fun _ _ => rfl, h2⟩
    | some n =>
      intro fs ⟨h1, h2⟩
      subst h1
      obtain ⟨live, hk⟩ := hs n h2
      obtain ⟨k, u, g, m⟩ := n
      simp only at hk
      subst hk
      show ∃ a, (unlinkCall true fwdSockPath fs).res = .ok a ∧ _ ∧ _
      refine fsGo_call (P := fun fs' => fs' = fs) (Q := fun _ fs' => AgreesOutside fs [fwdSockPath] fs' ∧ fs' fwdSockPath = none) (fun fs' hfs => ?_) fs rfl
      subst hfs
      rw [h2]
      exact ⟨_, rfl, agrees_put _ (by simp) (fun _ _ => rfl), put_self _ _ _⟩
  · rw [h]; exact ⟨_, rfl, agrees_put _ (by simp) hx, _, put_self _ _ _⟩
  · cases testMode with
    | true => exact fsGo_pure () fun _ h => h.1
    | false => exact setOwnerMode_go (by simp) 0 gid _

/-- The daemons' filters can be built everywhere. -/
theorem daemon_filter {allow : List Allow} (ha : allow = letmeindAllow ∨ allow = letmeinfwdAllow) (platform : Option SecPlatform) (opt : Option Seccomp)
    (conf : Config) : ∃ f, installFor allow platform opt conf true = .ok f := by
  have hc : ∀ p d, ∃ f, SecFilter.compile p allow d = .ok f := by
    have : ∀ p d, (match SecFilter.compile p allow d with | .ok _ => true | _ => false) = true := by
      rintro ⟨a, b⟩ d
      rcases ha with rfl | rfl <;> cases a <;> cases b <;> cases d <;> decide +kernel
    intro p d
    have := this p d
    split at this
    · exact ⟨_, by assumption⟩
    · cases this
  have hi : ∀ d, ∃ f, installSeccomp.install allow platform true d = .ok f := by
    intro d
    unfold installSeccomp.install
    cases platform with
    | none => exact ⟨_, rfl⟩
    | some p =>
      obtain ⟨f, hf⟩ := hc p d
      simp only [hf, R.bind_ok, rensure]
      exact ⟨_, rfl⟩
  unfold installFor installSeccomp
  cases opt.getD conf.seccomp with
  | Off => exact ⟨_, rfl⟩
  | Log => exact hi .Log
  | Kill => exact hi .Kill

/-- **C92** (letmeind). With a file that describes a configuration, a run directory without obstacles, sockets that are there and a limit within range,
letmeind starts, whatever the platform, the order of hash maps and the pieces in which the pid file is written; and its configuration is the one
described. -/
theorem C92_letmeind_starts {o : LmOpts} {w : LmWorld} (ho : IsOrder w.order) (hl : o.limit ≤ 2305843009213693951) {d : Doc} {c : Config}
    (hd : FileDoc w.file d) (hc : ConfOf w.f64 d c) (hv : c.variant = .Server) (hsys : ∀ i, w.fsEnv.ok i = true)
    (hdir : DirFits w.fs lmDirPath) (hpid : FileFits w.fs lmPidPath) (hinst : w.installOk = true)
    (hsock : CanListen c.port o.noSystemd w.sockets w.usable w.notifyOk w.bindTcpOk w.bindUdpOk) :
    ∃ p, lmMain o w = .ok p ∧ SameConf p.conf c := by
  obtain ⟨c', hload, hsame⟩ := C54_described_is_loaded (c := Config.new .Server) (path := o.config) ho hd hc hv
  obtain ⟨u, e1, hex, _⟩ := createDir_go w.fsEnv hdir w.fs rfl
  obtain ⟨l, e2⟩ := (C46_starts_iff ..).2 hsock
  have hpid' : FileFits (createDirIfNotExists w.fsEnv true lmDirPath w.fs).fs lmPidPath := by
    intro n hn
    rw [hex lmPidPath (by decide)] at hn
    exact hpid n hn
  obtain ⟨u2, e3, _⟩ := makePidfile_go w.fsEnv hsys w.chunks w.pid hpid' _ rfl
  obtain ⟨f, e4⟩ := daemon_filter (.inl rfl) w.platform o.seccomp c'
  have e5 : ∃ s, lmStart o.limit = .ok s := by
    unfold lmStart
    rw [if_neg (by unfold MAX_PERMITS; omega)]
    exact ⟨_, rfl⟩
  obtain ⟨s, e5⟩ := e5
  refine ⟨⟨c', l, f, (makePidfile w.fsEnv lmPidPath w.chunks w.pid (createDirIfNotExists w.fsEnv true lmDirPath w.fs).fs).fs, s⟩, ?_, hsame⟩
  simp only [lmMain]
  rw [hsys 0, e1, R.bind_ok, hload]
  simp only [R.bind_ok]
  rw [hsame.port, e2, R.bind_ok, e3, R.bind_ok, hinst, e4, R.bind_ok, e5, R.bind_ok]

/-- **C92** (letmeinfwd). With a file that describes a configuration that names a chain, letmeind's account, a run directory without obstacles, a socket
that is there, an nft that works and a limit within range, letmeinfwd starts. -/
theorem C92_letmeinfwd_starts {o : FwdOpts} {w : FwdWorld} (ho : IsOrder w.order) (hl : o.limit ≤ 2305843009213693951) {d : Doc} {c : Config}
    (hd : FileDoc w.file d) (hc : ConfOf w.f64 d c) (hv : c.variant = .Server) {n : NftNames} (hn : ChainOf c n) (hsys : ∀ i, w.fsEnv.ok i = true)
    (hdir : DirFits w.fs fwdDirPath) (hpid : FileFits w.fs fwdPidPath) (hinst : w.installOk = true) (hnft : w.nftOk = true)
    (hacc : o.testMode = false → HasAccount w.passwd w.group) (hsock : CanListenUnix o w) :
    ∃ k p, fwdMain o w = (k, .ok p) ∧ SameConf p.setup.conf c := by
  obtain ⟨c', hload, hsame⟩ := C54_described_is_loaded (c := Config.new .Server) (path := o.config) ho hd hc hv
  have hn' : ChainOf c' n := ⟨hsame.nftFamily.trans hn.family, hsame.nftTable.trans hn.table, hsame.nftChainInput.trans hn.chain, hn.tableNonempty, hn.chainNonempty⟩
  have e0 : ∃ ids, readEtcPasswd o.testMode w.passwd w.group = .ok ids := by
    cases ht : o.testMode with
    | true => exact ⟨_, rfl⟩
    | false =>
      obtain ⟨pw, gr, uid, gid, h1, h2, h3, h4, h5, h6⟩ := hacc ht
      have hname : ':' ∉ "letmeind".toList := by decide
      refine ⟨(UInt32.ofNat uid, UInt32.ofNat gid), (readEtcPasswd_iff ..).2 ?_⟩
      rw [(osGet_iff _ _ _ hname).1, (osGet_iff _ _ _ hname).2]
      have g1 : (UInt32.ofNat uid).toNat = uid := by rw [UInt32.toNat_ofNat']; exact Nat.mod_eq_of_lt h3
      have g2 : (UInt32.ofNat gid).toNat = gid := by rw [UInt32.toNat_ofNat']; exact Nat.mod_eq_of_lt h6
      rw [g1, g2]
      exact ⟨⟨pw, h1, h2⟩, gr, h4, h5⟩
  obtain ⟨ids, e0⟩ := e0
  obtain ⟨u, e1, hex⟩ := fwdMakeRunSubdir_go w.fsEnv hsys o.testMode ids.2 hdir w.fs rfl
  have e2 : ∃ fw k, NftFirewall.new c' w.kernel w.nftOk = (.ok fw, k) := by
    have := fullRebuild_ok hn' (fw := { leases := [], shutdown := false }) (by simp) rfl w.kernel
    unfold NftFirewall.new
    rw [hnft]
    simp only
    generalize fullRebuild c' { leases := [], shutdown := false } w.kernel true = x at *
    obtain ⟨r, k⟩ := x
    simp only at this
    subst this
    exact ⟨_, _, rfl⟩
  obtain ⟨fw, k, e2⟩ := e2
  obtain ⟨f, e4⟩ := daemon_filter (.inr rfl) w.platform o.seccomp c'
  have e3 : ∃ fs', fwdListen o w ids.2 (fwdMakeRunSubdir w.fsEnv o.testMode ids.2 w.fs).fs = .ok fs' ∧ FileFits fs' fwdPidPath := by
    have hp0 : FileFits (fwdMakeRunSubdir w.fsEnv o.testMode ids.2 w.fs).fs fwdPidPath := by
      intro m hm
      rw [hex fwdPidPath (by decide)] at hm
      exact hpid m hm
    rcases hsock with ⟨h1, fd, rest, h2, h3, h4⟩ | ⟨h1, h2⟩
    · refine ⟨_, ?_, hp0⟩
      simp [fwdListen, h1, h2, h3, h4]
    · have hs0 : SockFits (fwdMakeRunSubdir w.fsEnv o.testMode ids.2 w.fs).fs fwdSockPath := by
        intro m hm
        rw [hex fwdSockPath (by decide)] at hm
        exact h2 m hm
      obtain ⟨u3, g1, g2⟩ := fwdBindSocket_go w.fsEnv hsys o.testMode ids.2 hs0 _ rfl
      refine ⟨(fwdBindSocket w.fsEnv o.testMode ids.2 (fwdMakeRunSubdir w.fsEnv o.testMode ids.2 w.fs).fs).fs, ?_, ?_⟩
      · unfold fwdListen
        rw [h1]
        simp only [Bool.not_true, Bool.false_eq_true, if_false]
        generalize fwdBindSocket w.fsEnv o.testMode ids.2 (fwdMakeRunSubdir w.fsEnv o.testMode ids.2 w.fs).fs = x at *
        obtain ⟨r, st, fs'⟩ := x
        simp only at g1
        subst g1
        rfl
      · intro m hm
        rw [g2 fwdPidPath (by decide)] at hm
        exact hp0 m hm
  obtain ⟨fs', e3, hp1⟩ := e3
  obtain ⟨u4, e5, _⟩ := makePidfile_go w.fsEnv hsys w.chunks w.pid hp1 _ rfl
  have hlim : ¬ o.limit > MAX_PERMITS := by unfold MAX_PERMITS; omega
  have hready : fwdReady o w c' ids.2 (fwdMakeRunSubdir w.fsEnv o.testMode ids.2 w.fs).fs =
      .ok ((makePidfile w.fsEnv fwdPidPath w.chunks w.pid fs').fs, f) := by
    unfold fwdReady
    rw [e3, R.bind_ok]
    simp only
    rw [e5, R.bind_ok, hinst, e4, R.bind_ok]
  generalize hy : fwdMakeRunSubdir w.fsEnv o.testMode ids.2 w.fs = y at *
  obtain ⟨r, st, fs1⟩ := y
  simp only at e1
  subst e1
  unfold fwdMain
  simp only [e0, hy, hload, e2]
  simp only at hready
  rw [hready]
  simp only [R.bind, if_neg hlim]
  exact ⟨_, _, rfl, hsame⟩

/-! ## Concrete cases -/

/-- What `mainText` describes. -/
theorem mainText_conf : ∃ d c, FileDoc (.text mainText) d ∧ ConfOf noF64 d c ∧ c.variant = .Server ∧ ChainOf c fwNames ∧ c.port = ⟨5800, true, true⟩ := by
  have h : ((Config.new .Server).load noF64 id [] (.text mainText)).1 = .ok () := by decide +kernel
  have hl : (Config.new .Server).load noF64 id [] (.text mainText) = (.ok (), ((Config.new .Server).load noF64 id [] (.text mainText)).2) := by
    rw [← h]
  obtain ⟨d, hd⟩ := C54_server_needs_document rfl hl
  obtain ⟨h1, h2, _⟩ := C54_loaded_is_described (fun l => List.Perm.refl _) hd hl
  exact ⟨d, _, hd, h1, h2, ⟨by decide +kernel, by decide +kernel, by decide +kernel, by decide, by decide⟩, by decide +kernel⟩

/-- letmeind with two sockets from systemd and an old pid file, which is written in three pieces. -/
example : ∃ p, lmMain { config := [], limit := 8, noSystemd := false, seccomp := some .Log } { lmWorld with chunks := [1, 1] } = .ok p := by
  obtain ⟨d, c, hd, hc, hv, _, hp⟩ := mainText_conf
  obtain ⟨p, h, _⟩ := C92_letmeind_starts (o := { config := [], limit := 8, noSystemd := false, seccomp := some .Log })
    (w := { lmWorld with chunks := [1, 1] }) (fun l => List.Perm.refl _) (by decide) hd hc hv (fun _ => rfl)
    (fun n h => by simp [lmWorld, oldPidFs] at h; simp [← h])
    (fun n h => by
      have e : lmPidPath ≠ lmDirPath := by decide
      simp [lmWorld, oldPidFs, e] at h
      exact ⟨_, by rw [← h]⟩) rfl
    (by
      rw [hp]
      exact .inr ⟨rfl, _, rfl, by simp, fun _ => .inr ⟨4, rfl, rfl⟩, fun _ => .inr ⟨3, rfl, rfl⟩, fun _ => rfl, fun h => absurd (.inl ⟨rfl, 4, by simp⟩) h⟩)
  exact ⟨p, h⟩

/-- letmeinfwd on its own, with a socket left over. -/
example : ∃ k p, fwdMain { config := [], limit := 8, noSystemd := true, seccomp := some .Kill, testMode := false } fwdWorld = (k, .ok p) := by
  obtain ⟨d, c, hd, hc, hv, hn, _⟩ := mainText_conf
  have hacc : HasAccount fwdWorld.passwd fwdWorld.group := by
    have hname : ':' ∉ "letmeind".toList := by decide
    have h1 : osGetUid (some lifePasswd) "letmeind".toList = .ok 997 := by decide +kernel
    have h2 : osGetGid (some lifeGroup) "letmeind".toList = .ok 996 := by decide +kernel
    obtain ⟨pw, e1, a1⟩ := (osGet_iff _ _ _ hname).1.1 h1
    obtain ⟨gr, e2, a2⟩ := (osGet_iff _ _ _ hname).2.1 h2
    exact ⟨pw, gr, 997, 996, e1, a1, by decide, e2, a2, by decide⟩
  obtain ⟨k, p, h, _⟩ := C92_letmeinfwd_starts (o := { config := [], limit := 8, noSystemd := true, seccomp := some .Kill, testMode := false })
    (w := fwdWorld) (fun l => List.Perm.refl _) (by decide) hd hc hv hn (fun _ => rfl)
    (fun n h => by simp [fwdWorld, staleFs] at h; simp [← h])
    (fun n h => by
      have e1 : fwdPidPath ≠ fwdDirPath := by decide
      have e2 : fwdPidPath ≠ fwdSockPath := by decide
      simp [fwdWorld, staleFs, e1, e2] at h) rfl rfl (fun _ => hacc)
    (.inr ⟨rfl, fun n h => by
      have e : fwdSockPath ≠ fwdDirPath := by decide
      simp [fwdWorld, staleFs, e] at h
      exact ⟨_, by rw [← h]⟩⟩)
  exact ⟨k, p, h⟩

end Letmein.Props
