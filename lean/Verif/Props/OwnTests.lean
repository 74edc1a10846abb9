import Verif.Model.OwnTests
import Verif.Props.Readme
import Verif.Props.Starts
import Verif.Props.NftRuns

/-!
# Property C130: the tests of letmein itself

`/repo/tests/run-tests.sh`: the gen-key test and the two knock tests, with the configuration files and the `nft` stub of `/repo/tests`. For every schedule, every
process id, every iteration order and every generated key they pass; except for the check of the pid files, which can fail although the daemon starts as it should.
-/

namespace Letmein.Props

open Letmein Prog Spec

/-- The key of `/repo/tests/conf/tcp.conf:16`. -/
def testKey : Key :=
  ⟨[0x80, 0xE9, 0xC8, 0x1D, 0xFA, 0x48, 0x79, 0xB2, 0xC6, 0x49, 0x10, 0xE1, 0xB6, 0x87, 0x0D, 0xA4,
    0x2D, 0xFB, 0x82, 0x26, 0x1B, 0x76, 0xC8, 0x59, 0xF3, 0xA0, 0xF5, 0xA0, 0x9D, 0xEA, 0x2A, 0x3D], by decide⟩

/-- The resource of `/repo/tests/conf/tcp.conf:19`. -/
def testResource : Resource := { port := 42, tcp := true, udp := false, users := [] }

/-- What the test files say to letmeind and letmeinfwd. -/
def testServer (udp : Bool) : Config :=
  { freshServer with
    port := { port := 5810, tcp := !udp, udp }, seccomp := .Kill, keys := [(⟨0x12345678⟩, testKey)], resources := [(⟨0x87654321⟩, testResource)] }

/-- What the test files say to the client. -/
def testClient (udp : Bool) : Config :=
  { Config.new .Client with
    debug := true, port := { port := 5810, tcp := !udp, udp }, seccomp := .Kill, keys := [(⟨0x12345678⟩, testKey)], resources := [(⟨0x87654321⟩, testResource)] }

/-- The file of a test. -/
def testFile (udp : Bool) : FileContent := .text (textOf (testConf udp))

/-! ## The configuration files -/

theorem test_server_id (udp : Bool) : (Config.new .Server).load f64Secs id [] (testFile udp) = (.ok (), { testServer udp with path := some [] }) := by
  cases udp <;> decide +kernel

theorem test_client_id (udp : Bool) : (Config.new .Client).load f64Secs id [] (testFile udp) = (.ok (), { testClient udp with path := some [] }) := by
  cases udp <;> decide +kernel

/-- **C130** (the files). Servers and client load the file of either test, in whatever order the maps are iterated; the control port then has exactly the tested
protocol, and the only key and the only resource are those that the script uses. -/
theorem C130_files {order : IterOrder} (ho : IsOrder order) (path : Str) (udp : Bool) :
    (∃ c, (Config.new .Server).load f64Secs order path (testFile udp) = (.ok (), c) ∧ SameConf c (testServer udp)) ∧
    ∃ c, (Config.new .Client).load f64Secs order path (testFile udp) = (.ok (), c) ∧ SameConf c (testClient udp) :=
  ⟨same_conf_of ho path (test_server_id udp), same_conf_of ho path (test_client_id udp)⟩

theorem test_doc (udp : Bool) :
    ∃ d c, FileDoc (testFile udp) d ∧ ConfOf f64Secs d c ∧ c.variant = .Server ∧ SameConf c (testServer udp) := by
  obtain ⟨c, h1, h2⟩ := (C130_files id_order [] udp).1
  obtain ⟨d, hd⟩ := C54_server_needs_document rfl h1
  have := C54_loaded_is_described id_order hd h1
  exact ⟨d, c, hd, this.1, this.2.1, h2⟩

theorem test_chainOf {c : Config} {udp : Bool} (hs : SameConf c (testServer udp)) : ChainOf c freshNames :=
  ⟨hs.nftFamily, hs.nftTable, hs.nftChainInput, by decide, by decide⟩

theorem test_grants {d : Doc} {c : Config} {udp : Bool} (hd : (d.map (·.1)).Nodup) (hc : ConfOf f64Secs d c) (hs : SameConf c (testServer udp)) {u : UserId} :
    DocGrants d u ⟨0x87654321⟩ testResource := by
  rw [← docGrants_iff hd hc]
  refine ⟨?_, .inl rfl, ?_⟩
  · rw [hs.resources]; rfl
  · rw [hs.port]; exact show (42 : UInt16) ≠ 5810 by decide

/-! ## The stub -/

/-- **C130** (what the stub accepts). Of all the programs that letmeinfwd starts, from its start on and whatever happens, the stub accepts exactly those that apply a
ruleset: the test run with `--help` and the listing of the ruleset end in failure. -/
theorem C130_stub_answers {conf : Config} {n : NftNames} (hn : ChainOf conf n) (he : conf.nftExe = "nft".toList) (k0 : Kernel) (helpOk nftOk : Bool) (s : FwdState)
    (ops : List FwdOp) :
    ∀ ch ∈ (startRun conf k0 helpOk nftOk).1 ++ (childrenRun conf s ops).1, (stubAccepts ch = true ↔ ∃ cmds, readNft ch.stdin = some cmds) := by
  intro ch hc
  have hp := C128_command_lines hn k0 helpOk nftOk s ops ch hc
  unfold stubAccepts
  rw [hp.program, he, decide_eq_true_iff]
  rcases hp.stdin with ⟨h1, h2⟩ | ⟨h1, r, h2, _⟩
  · rw [h1]
    constructor
    · intro h
      injection h with _ h
      exact absurd h h2
    · rintro ⟨cmds, h⟩
      exact absurd h (by rw [show readNft [] = none by decide +kernel]; simp)
  · rw [h1, h2]
    exact ⟨fun _ => ⟨r, rfl⟩, fun _ => rfl⟩

theorem stub_applies {conf : Config} (he : conf.nftExe = "nft".toList) (cmds : List NfCmd) : stubAccepts (applyChild conf cmds) = true := by
  unfold stubAccepts applyChild
  rw [he]
  rfl

theorem healthy_stub {conf : Config} {n : NftNames} (hn : ChainOf conf n) (he : conf.nftExe = "nft".toList) {s : FwdState} (h : Healthy n s) {op : FwdOp}
    (hop : ∀ ok, op ≠ .terminate ok) (hf : OpFair n s (withStub conf op)) : Healthy n (fwdStep conf s (withStub conf op)).2 := by
  cases op with
  | request rx now ok => exact healthy_request hn h rx now _
  | maintain now env => exact healthy_maintain hn h now (stub_applies he [])
  | terminate ok => exact absurd rfl (hop ok)
  | «foreign» k => exact ⟨h.run, h.up, h.supp⟩
  | reorder l => exact ⟨h.run, h.up, fun e hm => h.supp e ((hf : l.Perm s.fw.leases).mem_iff.1 hm)⟩

/-- **C130** (letmeinfwd with the stub). letmeinfwd runs with the stub in place of `nft`, which fails whenever the ruleset is listed. Whatever it is asked, at whatever times,
and however often leases expire: until it is stopped it keeps running, and it answers every admissible request with Ack. -/
theorem C130_stub_suffices {conf : Config} {n : NftNames} (hn : ChainOf conf n) (he : conf.nftExe = "nft".toList) {k0 : Kernel} {s0 : FwdState}
    (h0 : fwdStart conf k0 (stubAccepts (applyChild conf [])) = some s0) (ops : List FwdOp) (hops : ∀ ok, .terminate ok ∉ ops)
    (hf : Fair conf n s0 (ops.map (withStub conf))) :
    (fwdRun conf s0 (ops.map (withStub conf))).2.phase = .running ∧
    ∀ addr t port now any, matchable n.family addr = true → OrdinaryAddr addr → (∃ e ∈ conf.resources, e.2.port = port) → port ≠ conf.port.port →
      (fwdStep conf (fwdRun conf s0 (ops.map (withStub conf))).2 (withStub conf (.request (.msg (FwMessage.newOpen addr t port)) now any))).1 =
        some FwMessage.newAck := by
  have hrun : (fwdRun conf s0 (ops.map (withStub conf))).2.phase = .running := by
    obtain ⟨hp, n', hn', hi⟩ := fwdStart_inv h0
    obtain rfl := chainOf_unique hn hn'
    have hh : Healthy n s0 := ⟨hp, (inv_running hi hp).2.1, (inv_running hi hp).1.supp⟩
    clear hp hi h0
    induction ops generalizing s0 with
    | nil => exact hh.run
    | cons op rest ih =>
      simp only [List.map_cons, fwdRun]
      refine ih (s0 := (fwdStep conf s0 (withStub conf op)).2) (fun ok hm => hops ok (by simp [hm])) hf.2 (healthy_stub hn he hh (fun ok e => hops ok (by simp [e])) hf.1)
  refine ⟨hrun, fun addr t port now any hm ha hr hport => ?_⟩
  rw [withStub, stub_applies he]
  exact C17_valid_requests_acked conf n hn k0 _ s0 h0 _ hf (.inl hrun) addr t port hm ha.1 ha.2.1 ha.2.2.1 ha.2.2.2 hr hport now

/-! ## The daemons -/

theorem sameConf_trans {a b c : Config} (h : SameConf a b) (g : SameConf b c) : SameConf a c :=
  ⟨h.variant.trans g.variant, h.debug.trans g.debug, h.port.trans g.port, h.controlTimeout.trans g.controlTimeout, h.controlErrorPolicy.trans g.controlErrorPolicy,
    h.seccomp.trans g.seccomp, fun u => (h.keys u).trans (g.keys u), fun r => (h.resources r).trans (g.resources r), h.defaultUser.trans g.defaultUser,
    h.nftExe.trans g.nftExe, h.nftFamily.trans g.nftFamily, h.nftTable.trans g.nftTable, h.nftChainInput.trans g.nftChainInput, h.nftTimeout.trans g.nftTimeout⟩

theorem digit_no_newline : ∀ d, d < 10 → '\n' ≠ digitLower d := by decide

theorem shellOutput_pid (pid : UInt32) : shellOutput (pidFileText pid) = showNat pid.toNat := by
  have hd : ∀ c ∈ showNat pid.toNat, c ≠ '\n' := fun c hc e => by
    subst e
    obtain ⟨d, hd, e⟩ := showNat_digits hc
    exact digit_no_newline d hd e
  unfold shellOutput pidFileText
  rw [List.reverse_append]
  simp only [List.reverse_cons, List.reverse_nil, List.nil_append, List.singleton_append, List.dropWhile_cons, decide_true, if_true]
  have : (showNat pid.toNat).reverse.dropWhile (· = '\n') = (showNat pid.toNat).reverse := by
    cases hr : (showNat pid.toNat).reverse with
    | nil => rfl
    | cons c cs =>
      have hc : c ∈ showNat pid.toNat := by rw [← List.mem_reverse, hr]; simp
      rw [List.dropWhile_cons, if_neg (by simp [hd c hc])]
  rw [this, List.reverse_reverse]

/-- **C130** (start). The run directory has just been removed, so that nothing in it is in the way of either daemon; system calls succeed, and the control port is free. Then both
daemons start with the command lines of the script, have the settings of the test's file, and letmeind listens on port 5810 with exactly the tested protocol. -/
theorem C130_daemons_start (udp : Bool) (config : Str) {wF : FwdWorld} (hoF : IsOrder wF.order) (h64F : wF.f64 = f64Secs) (hfF : wF.file = testFile udp)
    (hsysF : ∀ i, wF.fsEnv.ok i = true) (hinF : wF.installOk = true) (hnft : wF.nftOk = stubAccepts (applyChild (testServer udp) []))
    (h1 : wF.fs fwdDirPath = none) (h2 : wF.fs fwdPidPath = none) (h3 : wF.fs fwdSockPath = none)
    {wL : LmWorld} (hoL : IsOrder wL.order) (h64L : wL.f64 = f64Secs) (hfL : wL.file = testFile udp) (hsysL : ∀ i, wL.fsEnv.ok i = true) (hinL : wL.installOk = true)
    (hbind : (if udp then wL.bindUdpOk else wL.bindTcpOk) = true) (h4 : wL.fs lmDirPath = none) (h5 : wL.fs lmPidPath = none) :
    ∃ kF fwd lm, fwdMain (testFwdOpts config) wF = (kF, .ok fwd) ∧ lmMain (testLmOpts config) wL = .ok lm ∧
      SameConf fwd.setup.conf (testServer udp) ∧ SameConf lm.conf (testServer udp) ∧
      lm.listening.tcp = (if udp then none else some (.bound 5810)) ∧ lm.listening.udp = (if udp then some (.bound 5810) else none) := by
  obtain ⟨d, c, hd, hc, hv, hs⟩ := test_doc udp
  obtain ⟨kF, fwd, e1, s1⟩ := C92_letmeinfwd_starts (o := testFwdOpts config) hoF (show (8 : Nat) ≤ 2305843009213693951 by decide) (hfF ▸ hd) (h64F ▸ hc) hv (test_chainOf hs) hsysF
    (fun m hm => by rw [h1] at hm; cases hm) (fun m hm => by rw [h2] at hm; cases hm) hinF (hnft.trans (stub_applies rfl [])) (fun h => by cases h)
    (.inr ⟨rfl, fun m hm => by rw [h3] at hm; cases hm⟩)
  obtain ⟨lm, e2, s2⟩ := C92_letmeind_starts (o := testLmOpts config) hoL (show (8 : Nat) ≤ 2305843009213693951 by decide) (hfL ▸ hd) (h64L ▸ hc) hv hsysL
    (fun m hm => by rw [h4] at hm; cases hm) (fun m hm => by rw [h5] at hm; cases hm) hinL
    (.inl ⟨rfl, (fun h => by
      rw [hs.port] at h
      cases udp with
      | false => exact hbind
      | true => cases h), (fun h => by
      rw [hs.port] at h
      cases udp with
      | false => cases h
      | true => exact hbind)⟩)
  have s3 := sameConf_trans s2 hs
  refine ⟨kF, fwd, lm, e1, e2, sameConf_trans s1 hs, s3, ?_⟩
  have h := e2
  unfold lmMain at h
  simp only [R.bind_eq_ok] at h
  obtain ⟨_, _, _, hload, l, hl, _, hpid, f, hf, st, hst, h⟩ := h
  injection h with h
  subst h
  have hp := s3.port
  simp only at hp
  rcases serverNew_cases hl with ⟨ss, h, _⟩ | ⟨_, rfl⟩
  · cases h
  · simp only [hp]
    cases udp <;> exact ⟨rfl, rfl⟩

/-- **C130** (the pid files, partial). The full statement is that the script accepts the pid file of a daemon that starts, whenever it looks. Proved is that it accepts it if it
looks once the file has been written; `C130_pidfile_race` shows what is missing, and that it does not hold. -/
theorem C130_pidfile_partial :
    (∀ (o : FwdOpts) (w : FwdWorld) k p, fwdMain o w = (k, .ok p) → pidCheck p.fs fwdPidPath w.pid = some true) ∧
    ∀ (o : LmOpts) (w : LmWorld) p, lmMain o w = .ok p → pidCheck p.fs lmPidPath w.pid = some true := by
  have key : ∀ {fs path pid}, fsRead fs path = some (pidFileText pid) → pidCheck fs path pid = some true := by
    intro fs path pid h
    unfold pidCheck
    rw [h, Option.map_some, shellOutput_pid]
    simp
  refine ⟨fun o w k p h => key ?_, fun o w p h => key ?_⟩
  · obtain ⟨ids, d, conf, fw, r, hids, rfl, hd, hload, _, hr, _, rfl⟩ := fwdMain_ok h
    unfold fwdReady at hr
    simp only [R.bind_eq_ok] at hr
    obtain ⟨fs1, hlis, _, hpid, f, hf, hr⟩ := hr
    injection hr with hr
    subst hr
    exact makePidfile_content _ _ _ _ _ hpid
  · unfold lmMain at h
    simp only [R.bind_eq_ok] at h
    obtain ⟨_, _, _, hload, l, hl, _, hpid, f, hf, st, hst, h⟩ := h
    injection h with h
    subst h
    exact makePidfile_content _ _ _ _ _ hpid

theorem bind_states {α β : Type} {p : FsM α} {f : α → FsM β} {fs : Fs} {b : β} (h : (FsM.bind p f fs).res = .ok b) :
    ∃ a, (p fs).res = .ok a ∧ (f a (p fs).fs).res = .ok b ∧ (FsM.bind p f fs).states = (p fs).states ++ (f a (p fs).fs).states := by
  unfold FsM.bind at h ⊢
  dsimp only at h ⊢
  split at h
  · rename_i a ha
    rw [ha]
    exact ⟨a, rfl, h, rfl⟩
  · cases h
  · cases h

theorem makePidfile_empty {env : FsEnv} {path : Str} {chunks : List Nat} {pid : UInt32} {fs : Fs} (h : (makePidfile env path chunks pid fs).res = .ok ()) :
    ∃ s ∈ (makePidfile env path chunks pid fs).states, fsRead s path = some [] := by
  obtain ⟨_, h1, _, h2⟩ := bind_states h
  have : ∃ s ∈ (openTruncCall env (env.ok 7) path fs).states, fsRead s path = some [] := by
    unfold openTruncCall fsCall at h1 ⊢
    split at h1
    · rename_i fs' hf
      refine ⟨fs', by simp, ?_⟩
      split at hf
      · dsimp only at hf
        split at hf
        · injection hf with hf; subst hf; simp [fsRead, put_self]
        · split at hf
          · injection hf with hf; subst hf; simp [fsRead, put_self]
          · cases hf
      · cases hf
    · cases h1
  obtain ⟨s, hs, he⟩ := this
  refine ⟨s, ?_, he⟩
  rw [show (makePidfile env path chunks pid fs).states = _ from h2]
  exact List.mem_append.2 (.inl hs)

/-- **C130** (the pid files: a race). Whichever daemon starts successfully, whatever its process id: there is a moment at which the script finds its pid file, does not find the
process id in it and ends the test with "Invalid PID-file". -/
theorem C130_pidfile_race (env : FsEnv) (between : Bool) (chunks : List Nat) (pid : UInt32) (fs : Fs) :
    (∀ testMode gid, (fwdFsStart env testMode gid between chunks pid fs).res = .ok () →
      ∃ s ∈ (fwdFsStart env testMode gid between chunks pid fs).states, pidCheck s fwdPidPath pid = some false) ∧
    ((lmFsStart env between chunks pid fs).res = .ok () → ∃ s ∈ (lmFsStart env between chunks pid fs).states, pidCheck s lmPidPath pid = some false) := by
  have key : ∀ {s : Fs} {path : Str}, fsRead s path = some [] → pidCheck s path pid = some false := by
    intro s path h
    unfold pidCheck
    rw [h, Option.map_some]
    simp [shellOutput, showNat_ne_nil]
  constructor
  · intro testMode gid h
    obtain ⟨_, _, h, e1⟩ := bind_states h
    obtain ⟨_, _, h, e2⟩ := bind_states h
    obtain ⟨_, _, h, e3⟩ := bind_states h
    obtain ⟨s, hs, he⟩ := makePidfile_empty h
    refine ⟨s, ?_, key he⟩
    rw [show (fwdFsStart env testMode gid between chunks pid fs).states = _ from e1]
    refine List.mem_append.2 (.inr ?_)
    refine e2 ▸ List.mem_append.2 (.inr ?_)
    exact e3 ▸ List.mem_append.2 (.inr hs)
  · intro h
    obtain ⟨_, _, h, e1⟩ := bind_states h
    obtain ⟨_, _, h, e2⟩ := bind_states h
    obtain ⟨s, hs, he⟩ := makePidfile_empty h
    refine ⟨s, ?_, key he⟩
    rw [show (lmFsStart env between chunks pid fs).states = _ from e1]
    refine List.mem_append.2 (.inr ?_)
    exact e2 ▸ List.mem_append.2 (.inr hs)

/-! ## gen-key -/

/-- **C130** (the gen-key test). Whichever key is generated: the script gets the user that it has asked for, and if it looked at the key, it would get the key. -/
theorem C130_genkey (conf : Config) (user : UserId) {raw : Option (Arr KEY_SIZE)} {key : Key} (hkey : secureRandom KEY_SIZE raw = .ok key) :
    IdText (genkeyUser (genkeyLine conf (some user) key)) user.raw ∧ KeyText (genkeyKey (genkeyLine conf (some user) key)) key ∧
    (user = ⟨0x12345678⟩ → genkeyUser (genkeyLine conf (some user) key) = "12345678".toList) := by
  have hu : ∀ c ∈ showId user.raw, c ≠ '=' ∧ c ≠ ' ' := fun c hc => by
    have := hex_char (mem_showId hc)
    exact ⟨this.2.2.2.1, fun e => by subst e; exact absurd this.1 (by decide)⟩
  have hk : ∀ c ∈ (key.val.map showHexByte).flatten, c ≠ '=' ∧ c ≠ ' ' := fun c hc => by
    have := hex_char (mem_showKey hc)
    exact ⟨this.2.2.2.1, fun e => by subst e; exact absurd this.1 (by decide)⟩
  have hs : splitOn '=' (genkeyLine conf (some user) key) = [showId user.raw ++ [' '], ' ' :: (key.val.map showHexByte).flatten] := by
    rw [show genkeyLine conf (some user) key = (showId user.raw ++ [' ']) ++ '=' :: (' ' :: (key.val.map showHexByte).flatten) by
      unfold genkeyLine; simp]
    rw [splitOn_append_sep, splitOn_of_not_mem]
    · intro h
      rcases List.mem_cons.1 h with h | h
      · exact absurd h (by decide)
      · exact (hk _ h).1 rfl
    · intro h
      rcases List.mem_append.1 h with h | h
      · exact (hu _ h).1 rfl
      · exact absurd (List.mem_singleton.1 h) (by decide)
  have hm : '=' ∈ genkeyLine conf (some user) key := by unfold genkeyLine; simp
  have e1 : genkeyUser (genkeyLine conf (some user) key) = showId user.raw := by
    unfold genkeyUser
    rw [show cutField '=' 1 (genkeyLine conf (some user) key) = showId user.raw ++ [' '] by unfold cutField; rw [if_pos hm, hs]; rfl]
    unfold cutField
    rw [if_pos (by simp), splitOn_append_sep (fun h => (hu _ h).2 rfl)]
    rfl
  have e2 : genkeyKey (genkeyLine conf (some user) key) = (key.val.map showHexByte).flatten := by
    unfold genkeyKey
    rw [show cutField '=' 2 (genkeyLine conf (some user) key) = ' ' :: (key.val.map showHexByte).flatten by unfold cutField; rw [if_pos hm, hs]; rfl]
    unfold cutField
    rw [if_pos (by simp), show ' ' :: (key.val.map showHexByte).flatten = [] ++ ' ' :: (key.val.map showHexByte).flatten from rfl, splitOn_append_sep (by simp),
      splitOn_of_not_mem (fun h => (hk _ h).2 rfl)]
    rfl
  rw [e1, e2]
  obtain ⟨_, _, _, _, hK⟩ := C39_line_is_entry hkey (conf := conf) (user := some user) (.inl rfl)
  exact ⟨showId_text _, ⟨⟨_, trimmed_self fun c hc => (hex_char (mem_showKey hc)).1, hexPairs_show key.val⟩, hK.2⟩, fun h => by subst h; decide +kernel⟩

/-! ## The knocks -/

/-- **C130** (the knocks). Both daemons have been started from the test's file. The host has an address in a selected family, the connection to it can be opened, and the exchange over it runs to
its end without interference. Then each of the three commands of the script, and each other choice of `--ipv4` and `--ipv6`, ends in success. -/
theorem C130_knock (udp : Bool) {mac : MacFn} {oF : FwdOpts} {wF : FwdWorld} (hoF : IsOrder wF.order) (hfF : wF.file = testFile udp) {kF : Kernel} {fwd : FwdProc}
    (hF : fwdMain oF wF = (kF, .ok fwd)) {oL : LmOpts} {wL : LmWorld} (hoL : IsOrder wL.order) (hfL : wL.file = testFile udp) {lm : LmProc}
    (hL : lmMain oL wL = .ok lm)
    {o : ClientOpts} {w : ClientWorld} (ho : IsOrder w.order) (h64 : w.f64 = f64Secs) (hfC : w.file = testFile udp) (hinst : w.installOk = true)
    (hv : o.version = false) {v4 v6 : Bool} (hcmd : o.command = some (.knock "localhost".toList 42 (some ⟨0x12345678⟩) none false false v4 v6))
    {peer : IpAddr} (hpeer : OrdinaryAddr peer)
    {before : List FwdOp} (hb : (fwdRun fwd.setup.conf fwd.life.core before).2.phase ≠ .stopped) {evs : List WEv} {W : Whole}
    (hrun : WSteps fwd.setup.conf (Whole.init mac lm.conf peer ⟨0x12345678⟩ ⟨0x87654321⟩ testKey (fwdRun fwd.setup.conf fwd.life.core before).2) evs W)
    (hfair : Fair fwd.setup.conf freshNames fwd.life.core (before ++ wholeOps evs)) (hterm : ∀ ok, FwdOp.terminate ok ∉ wholeOps evs)
    (hend : ¬ ∃ e W', WEv.own e = true ∧ WStep fwd.setup.conf W e W')
    {m : ResMode} (hm : Selects v4 v6 m) {a : IpAddr} (hres : (resolve w.parseIp w.dns "localhost".toList ⟨m, o.dns, o.dnsCrypt⟩).2 = .ok a)
    (hopen : ∀ conf act, conf.port = { port := 5810, tcp := !udp, udp } → Connection ⟨"localhost".toList, AddrMode.ofFlags v4 v6, none, false, false⟩ conf a act →
      w.opens act = true ∧ W.client = .ret (w.exchange ⟨0x12345678⟩ ⟨0x87654321⟩ testKey act))
    (hnp : ∀ act, w.exchange ⟨0x12345678⟩ ⟨0x87654321⟩ testKey act ≠ .panic) :
    (clientMain o w).2 = .ok () := by
  obtain ⟨d, c, hd, hc, hvS, hs⟩ := test_doc udp
  have hnd := fileDoc_nodup hd
  obtain ⟨cC, hlC, sC⟩ := (C130_files ho o.config udp).2
  rw [← h64, ← hfC] at hlC
  obtain ⟨hcC, vC, _⟩ := C54_loaded_is_described ho (hfC ▸ hd) hlC
  have hkC : cC.key ⟨0x12345678⟩ = some testKey := by rw [sC.keys]; rfl
  have hrC : cC.resource ⟨0x87654321⟩ = some testResource := by rw [sC.resources]; rfl
  have hkS : c.key ⟨0x12345678⟩ = some testKey := by rw [hs.keys]; rfl
  obtain ⟨p1, p2, p3, p4⟩ := hpeer
  exact (C80_command_opens hoF hF hoL hL (hfF.trans hfL.symm) (hfL ▸ hd) ho hinst hv hcmd (hfC ▸ hd) hlC (.inl rfl) ((hcC.keys.keys _ _).1 hkC)
    ((hc.keys.keys _ _).1 hkS) ((hcC.resources.resources _ _).1 hrC) rfl (.inl rfl) (test_grants hnd hc hs) (docChain_of hc hvS (test_chainOf hs))
    (by cases peer <;> rfl) ⟨p1, p2, p3, p4⟩ hb hrun hfair hterm hend hm hres (fun act => hopen cC act sC.port) hnp).1

/-- **C130** (the knocks are possible). The hypotheses of `C130_knock` about the run can be met, for either file and wherever the daemons run. Without interference the exchange takes
18 steps and ends in success. -/
theorem C130_possible (udp : Bool) (mac : MacFn) {oF : FwdOpts} {wF : FwdWorld} (hoF : IsOrder wF.order) (hfF : wF.file = testFile udp) {kF : Kernel} {fwd : FwdProc}
    (hF : fwdMain oF wF = (kF, .ok fwd)) {oL : LmOpts} {wL : LmWorld} (hoL : IsOrder wL.order) (hfL : wL.file = testFile udp)
    {lm : LmProc} (hL : lmMain oL wL = .ok lm) {peer : IpAddr} (hpeer : OrdinaryAddr peer) :
    ∃ evs W, WSteps fwd.setup.conf (Whole.init mac lm.conf peer ⟨0x12345678⟩ ⟨0x87654321⟩ testKey fwd.life.core) evs W ∧ evs.length = 18 ∧
      Fair fwd.setup.conf freshNames fwd.life.core (wholeOps evs) ∧ (∀ ok, FwdOp.terminate ok ∉ wholeOps evs) ∧
      (¬ ∃ e W', WEv.own e = true ∧ WStep fwd.setup.conf W e W') ∧ W.client = .ret (.ok ()) := by
  obtain ⟨d, c, hd, hc, hvS, hs⟩ := test_doc udp
  have hnd := fileDoc_nodup hd
  obtain ⟨cF, vF⟩ := fwdMain_conf hoF hF (hfF ▸ hd)
  obtain ⟨cL, vL, _⟩ := lmMain_conf hoL hL (hfL ▸ hd)
  have hchain := chainOf_doc hnd cF vF (docChain_of hc hvS (test_chainOf hs))
  have hg : Granted lm.conf ⟨0x12345678⟩ ⟨0x87654321⟩ testResource := (docGrants_iff hnd cL).2 (test_grants hnd hc hs)
  have hkS : c.key ⟨0x12345678⟩ = some testKey := by rw [hs.keys]; rfl
  have hk : lm.conf.key ⟨0x12345678⟩ = some testKey := (cL.keys.keys _ _).2 ((hc.keys.keys _ _).1 hkS)
  obtain ⟨e1, e2⟩ := C80_one_file hoF hF hoL hL (hfF.trans hfL.symm) (hfL ▸ hd) hg
  obtain ⟨_, _, _, _, _, _, _, hstart, _⟩ := lifeStart_ok (fwdMain_lifeStart hF)
  have hns : (fwdRun fwd.setup.conf fwd.life.core []).2.phase ≠ .stopped := by
    rw [show (fwdRun fwd.setup.conf fwd.life.core []).2.phase = .running from (fwdStart_inv hstart).1]; simp
  obtain ⟨p1, p2, p3, p4⟩ := hpeer
  have hcan : CanOpen fwd.setup.conf freshNames peer testResource.port := ⟨e1, e2, by cases peer <;> rfl, p1, p2, p3, p4⟩
  obtain ⟨evs, W, hrun, hown, hlen, hcl⟩ := C79_complete_run mac lm.conf fwd.setup.conf peer _ _ _ _ hk hg (.inl rfl) freshNames hchain hcan _ _ _
    hstart [] hns trivial
  have hall : ∀ e ∈ evs, WEv.own e = true := by
    have h : evs.filter WEv.own = evs := List.filter_sublist.eq_of_length (by rw [hlen]; exact hown)
    exact List.filter_eq_self.1 h
  refine ⟨evs, W, hrun, hlen, requests_fair (own_ops hall) _, fun ok h => ?_, ?_, hcl⟩
  · obtain ⟨_, _, hx⟩ := own_ops hall _ h
    cases hx
  · rintro ⟨e, W', he, hstep⟩
    have hall' : ∀ x ∈ evs ++ [e], WEv.own x = true := fun x hx => by
      rcases List.mem_append.1 hx with h | h
      · exact hall x h
      · rw [List.mem_singleton.1 h]; exact he
    have := (C79_honest_knock_opens mac lm.conf fwd.setup.conf peer _ _ _ _ hk hg (.inl rfl) freshNames hchain hcan _ _ _
      hstart [] hns _ W' (.step hrun hstep) (requests_fair (own_ops hall') _) (fun ok h => by obtain ⟨_, _, hx⟩ := own_ops hall' _ h; cases hx)).1
    rw [ownSteps_append, hown, if_pos he] at this
    omega

/-! ## Concrete cases -/

/-- The surroundings of letmeinfwd in a test. -/
def testFwdWorld (udp : Bool) : FwdWorld := { freshWorld with file := testFile udp, fs := fun _ => none, fsEnv := ⟨1000, 1000, 0o022, fun _ => true⟩ }
/-- The surroundings of letmeind in a test. -/
def testLmWorld (udp : Bool) : LmWorld := { freshLmWorld with file := testFile udp, fs := fun _ => none, fsEnv := ⟨1000, 1000, 0o022, fun _ => true⟩ }

theorem test_start (udp : Bool) : ∃ kF fwd lm, fwdMain (testFwdOpts "tcp.conf".toList) (testFwdWorld udp) = (kF, .ok fwd) ∧
    lmMain (testLmOpts "tcp.conf".toList) (testLmWorld udp) = .ok lm ∧
    SameConf fwd.setup.conf (testServer udp) ∧ SameConf lm.conf (testServer udp) ∧
    lm.listening.tcp = (if udp then none else some (.bound 5810)) ∧ lm.listening.udp = (if udp then some (.bound 5810) else none) :=
  C130_daemons_start udp _ reverse_order rfl rfl (fun _ => rfl) rfl (by cases udp <;> decide +kernel) rfl rfl rfl id_order rfl rfl (fun _ => rfl) rfl
    (by cases udp <;> rfl) rfl rfl

/-- Each test with each of its three commands. -/
example (udp : Bool) : ∀ f ∈ [(false, false), (true, false), (false, true)], ∃ w : ClientWorld, w.file = testFile udp ∧
    (clientMain (knockOpts (.knock "localhost".toList 42 (some ⟨0x12345678⟩) none false false f.1 f.2)) w).2 = .ok () := by
  intro f hf
  obtain ⟨k, p, q, hp, hq, _⟩ := test_start udp
  have hpeer : OrdinaryAddr examplePeer := ⟨by decide, by decide, by decide, by decide⟩
  obtain ⟨evs, W, hrun, hlen, hfair, hterm, hend, hcl⟩ := C130_possible udp toyMac reverse_order rfl hp id_order rfl hq hpeer
  obtain ⟨_, _, _, _, _, _, _, hstart, _⟩ := lifeStart_ok (fwdMain_lifeStart hp)
  have hph : (fwdRun p.setup.conf p.life.core []).2.phase ≠ .stopped := by
    rw [show (fwdRun p.setup.conf p.life.core []).2.phase = .running from (fwdStart_inv hstart).1]; simp
  refine ⟨{ knockWorld (testFile udp) none with
    f64 := f64Secs
    dns := fun q => match q.record with | .A => some [.A ⟨[127, 0, 0, 1], rfl⟩] | .AAAA => some [.AAAA ⟨List.replicate 15 0 ++ [1], rfl⟩] }, rfl, ?_⟩
  simp only [List.mem_cons, List.not_mem_nil, or_false] at hf
  rcases hf with rfl | rfl | rfl
  · exact C130_knock udp (before := []) (m := .Ipv4) reverse_order rfl hp id_order rfl hq id_order rfl rfl rfl rfl rfl hpeer hph hrun hfair hterm hend (.inr (.inr ⟨rfl, rfl⟩))
      (a := .v4 ⟨[127, 0, 0, 1], rfl⟩) (by cases udp <;> decide +kernel) (fun _ _ _ _ => ⟨rfl, hcl⟩) (fun _ h => by cases h)
  · exact C130_knock udp (before := []) (m := .Ipv4) reverse_order rfl hp id_order rfl hq id_order rfl rfl rfl rfl rfl hpeer hph hrun hfair hterm hend (.inl ⟨rfl, rfl, rfl⟩)
      (a := .v4 ⟨[127, 0, 0, 1], rfl⟩) (by cases udp <;> decide +kernel) (fun _ _ _ _ => ⟨rfl, hcl⟩) (fun _ h => by cases h)
  · exact C130_knock udp (before := []) (m := .Ipv6) reverse_order rfl hp id_order rfl hq id_order rfl rfl rfl rfl rfl hpeer hph hrun hfair hterm hend (.inr (.inl ⟨rfl, rfl, rfl⟩))
      (a := .v6 ⟨List.replicate 15 0 ++ [1], rfl⟩) (by cases udp <;> decide +kernel) (fun _ _ _ _ => ⟨rfl, hcl⟩) (fun _ h => by cases h)

/-- Somebody knocks, and then for a long time nobody does. -/
def stubOps : List FwdOp := [.request (.msg (FwMessage.newOpen examplePeer .Tcp 42)) 0 true, .maintain (second) calmEnv, .maintain (601 * second) calmEnv]

/-- The command lines of a history with the stub, and whether it accepts them. -/
def stubChildren : Option (List (List Str × Bool)) :=
  match fwdStart (testServer false) fwKernel (stubAccepts (applyChild (testServer false) [])) with
  | some s0 => some ((childrenRun (testServer false) s0 (stubOps.map (withStub (testServer false)))).1.map fun ch => (ch.args, stubAccepts ch))
  | none => none

/-- The lease expires, the listing fails, and letmeinfwd rebuilds its chain. -/
example : stubChildren = some [(["-j", "-f", "-"].map String.toList, true), (["-j", "list", "ruleset"].map String.toList, false), (["-j", "-f", "-"].map String.toList, true)] := by
  decide +kernel

/-- It keeps running and grants the next request. -/
example : ∃ s0, fwdStart (testServer false) fwKernel (stubAccepts (applyChild (testServer false) [])) = some s0 ∧
    (fwdRun (testServer false) s0 (stubOps.map (withStub (testServer false)))).2.phase = .running ∧
    (fwdStep (testServer false) (fwdRun (testServer false) s0 (stubOps.map (withStub (testServer false)))).2
      (withStub (testServer false) (.request (.msg (FwMessage.newOpen examplePeer .Tcp 42)) (700 * second) false))).1 = some FwMessage.newAck := by
  obtain ⟨s0, h0⟩ := Option.isSome_iff_exists.1 (show (fwdStart (testServer false) fwKernel (stubAccepts (applyChild (testServer false) []))).isSome = true by decide +kernel)
  have h := C130_stub_suffices (n := freshNames) (test_chainOf (sameConf_refl _)) rfl h0 stubOps (by simp [stubOps])
    ⟨trivial, ⟨fun _ => ⟨rfl, Nat.le_refl _⟩, fun _ => ⟨rfl, Nat.le_refl _⟩⟩, ⟨fun _ => ⟨rfl, Nat.le_refl _⟩, fun _ => ⟨rfl, Nat.le_refl _⟩⟩, trivial⟩
  exact ⟨s0, h0, h.1, h.2 _ _ _ _ _ rfl ⟨by decide, by decide, by decide, by decide⟩ ⟨_, List.mem_singleton.2 rfl, rfl⟩ (show (42 : UInt16) ≠ 5810 by decide)⟩

/-- The pid file of a daemon that starts in an empty run directory: found empty at first, then accepted. -/
example : ((lmFsStart ⟨0, 0, 0o022, fun _ => true⟩ true [] 1234 (fun _ => none)).states.map fun s => pidCheck s lmPidPath 1234) = [none, some false, some true] := by decide +kernel

/-- What the script cuts out of a printed line. -/
example : genkeyUser "12345678 = 80E9C81D".toList = "12345678".toList ∧ genkeyKey "12345678 = 80E9C81D".toList = "80E9C81D".toList := by decide +kernel

example : KeyText (genkeyKey (genkeyLine freshClient (some ⟨0x12345678⟩) genkeyExampleKey)) genkeyExampleKey := (C130_genkey _ _ readme_key_ok).2.1

end Letmein.Props
