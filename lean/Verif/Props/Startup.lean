import Verif.Props.Main

/-!
# Property C76: starting fails gracefully
-/

namespace Letmein.Props

open Letmein Prog Spec

/-! ## Pieces -/

/-- The code never panics. -/
def FsCalm {α : Type} (p : FsM α) : Prop := ∀ fs, (p fs).res ≠ .panic

theorem fsCalm_bind {α β : Type} {p : FsM α} {f : α → FsM β} (hp : FsCalm p) (hf : ∀ a, FsCalm (f a)) : FsCalm (p >>= f) := by
  intro fs
  show (FsM.bind p f fs).res ≠ .panic
  have h1 := hp fs
  cases hr : (p fs).res with
  | ok x => simp only [FsM.bind, hr]; exact hf x _
  | err => simp [FsM.bind, hr]
  | panic => exact absurd hr h1

theorem fsCalm_pure {α : Type} (a : α) : FsCalm (pure a : FsM α) := by intro fs; show (FsM.pure a fs).res ≠ _; simp [FsM.pure]
theorem fsCalm_fail {α : Type} : FsCalm (FsM.fail : FsM α) := by intro fs; simp [FsM.fail]
theorem fsCalm_stat (path : Str) : FsCalm (fsStat path) := by intro fs; simp [fsStat]
theorem fsCalm_call (ok : Bool) (f : Fs → Option Fs) : FsCalm (fsCall ok f) := by
  intro fs; unfold fsCall; split <;> simp

theorem fsCalm_createDir (env : FsEnv) (ok : Bool) (path : Str) : FsCalm (createDirIfNotExists env ok path) := by
  unfold createDirIfNotExists
  refine fsCalm_bind (fsCalm_stat path) fun n => ?_
  cases n with
  | none => exact fsCalm_call _ _
  | some n =>
    simp only
    split
    · exact fsCalm_fail
    · exact fsCalm_pure ()

theorem fsCalm_setOwnerMode (ok1 ok2 : Bool) (path : Str) (uid gid : UInt32) (mode : Nat) : FsCalm (setOwnerMode ok1 ok2 path uid gid mode) := by
  unfold setOwnerMode
  refine fsCalm_bind (fsCalm_stat path) fun n => ?_
  cases n with
  | none => exact fsCalm_fail
  | some n => exact fsCalm_bind (fsCalm_call _ _) fun _ => fsCalm_call _ _

theorem fsCalm_makeRunSubdir (env : FsEnv) (testMode : Bool) (gid : UInt32) : FsCalm (fwdMakeRunSubdir env testMode gid) := by
  unfold fwdMakeRunSubdir
  refine fsCalm_bind (fsCalm_createDir _ _ _) fun _ => ?_
  split
  · exact fsCalm_setOwnerMode _ _ _ _ _ _
  · exact fsCalm_pure ()

theorem fsCalm_bindSocket (env : FsEnv) (testMode : Bool) (gid : UInt32) : FsCalm (fwdBindSocket env testMode gid) := by
  unfold fwdBindSocket
  refine fsCalm_bind ?_ fun _ => fsCalm_bind (fsCalm_call _ _) fun _ => ?_
  · unfold fwdRemoveSocket
    refine fsCalm_bind (fsCalm_stat _) fun n => ?_
    split
    · exact fsCalm_call _ _
    · exact fsCalm_pure ()
  · split
    · exact fsCalm_setOwnerMode _ _ _ _ _ _
    · exact fsCalm_pure ()

theorem fsCalm_writeAll (path : Str) (chunks : List Nat) : ∀ (ok : Nat → Bool) (text : Str), FsCalm (writeAll ok path chunks text) := by
  induction chunks with
  | nil =>
    intro ok text
    cases text with
    | nil => exact fsCalm_pure ()
    | cons c text => exact fsCalm_call _ _
  | cons k chunks ih =>
    intro ok text
    cases text with
    | nil => exact fsCalm_pure ()
    | cons c text => exact fsCalm_bind (fsCalm_call _ _) fun _ => ih _ _

theorem fsCalm_makePidfile (env : FsEnv) (path : Str) (chunks : List Nat) (pid : UInt32) : FsCalm (makePidfile env path chunks pid) :=
  fsCalm_bind (fsCalm_call _ _) fun _ => fsCalm_writeAll _ _ _ _

theorem installFor_not_panic {allow : List Allow} (ha : allow = letmeinAllow ∨ allow = letmeindAllow ∨ allow = letmeinfwdAllow) (platform : Option SecPlatform)
    (opt : Option Seccomp) (conf : Config) (ok : Bool) : installFor allow platform opt conf ok ≠ .panic := by
  have hc : ∀ p d, SecFilter.compile p allow d ≠ .panic := by
    rintro ⟨a, b⟩ d
    rcases ha with rfl | rfl | rfl <;> cases a <;> cases b <;> cases d <;> decide +kernel
  have hi : ∀ d, installSeccomp.install allow platform ok d ≠ .panic := by
    intro d
    unfold installSeccomp.install
    cases platform with
    | none => simp
    | some p =>
      refine R.bind_not_panic (hc p d) fun f _ => R.bind_not_panic (rensure_not_panic _) fun _ _ => ?_
      simp
  unfold installFor installSeccomp
  cases opt.getD conf.seccomp with
  | Off => simp
  | Log => exact hi .Log
  | Kill => exact hi .Kill

theorem serverSockets_not_panic (port : ControlPort) (usable : Nat → Bool) (ss : List SystemdSocket) : ∀ l, serverSockets port usable l ss ≠ .panic := by
  induction ss with
  | nil => intro l; simp [serverSockets]
  | cons s ss ih =>
    intro l
    cases s with
    | Tcp fd =>
      rw [serverSockets]
      split
      · simp
      · split
        · exact ih _
        · split
          · simp
          · exact ih _
    | Udp fd =>
      rw [serverSockets]
      split
      · simp
      · split
        · exact ih _
        · split
          · simp
          · exact ih _
    | Unix fd => simp [serverSockets]

theorem serverNew_not_panic (port : ControlPort) (noSystemd : Bool) {sockets : R (List SystemdSocket)} (hs : sockets ≠ .panic) (usable : Nat → Bool)
    (notifyOk b1 b2 : Bool) : serverNew port noSystemd sockets usable notifyOk b1 b2 ≠ .panic := by
  have hb : ∀ w o (p : UInt16), bindIf w o p ≠ .panic := by intro w o p; cases w <;> cases o <;> simp [bindIf]
  unfold serverNew
  refine R.bind_not_panic ?_ fun l _ => ?_
  · unfold serverFromSystemd
    split
    · simp
    · refine R.bind_not_panic hs fun l _ => R.bind_not_panic (serverSockets_not_panic _ _ _ _) fun l _ => ?_
      split <;> simp
  · split
    · exact R.bind_not_panic (hb _ _ _) fun _ _ => R.bind_not_panic (hb _ _ _) fun _ _ => by simp
    · simp

theorem getAll_not_panic (feat : SystemdFeatures) (env : SystemdEnv) (h : env.fds ≠ .panic) : SystemdSocket.getAll feat env ≠ .panic := by
  have hc : ∀ f, classifyFd feat f ≠ .panic := by
    intro f
    unfold classifyFd
    split
    · simp
    · split
      · simp
      · split <;> simp
  have hl : ∀ l, systemdSockets feat l ≠ .panic := by
    intro l
    induction l with
    | nil => simp [systemdSockets]
    | cons f l ih => exact R.bind_not_panic (hc f) fun _ _ => R.bind_not_panic ih fun _ _ => by simp
  unfold SystemdSocket.getAll
  split
  · exact R.bind_not_panic h fun _ _ => hl _
  · simp

theorem findId_not_panic (n : Nat) (name : Str) (ls : List Str) : findId n name ls ≠ .panic := by
  induction ls with
  | nil => simp [findId]
  | cons l ls ih =>
    unfold findId
    split
    · simp
    · split
      · split
        · exact R.bind_not_panic fromStrRadix_not_panic fun _ _ => by simp
        · simp
      · exact ih

theorem readEtcPasswd_not_panic (testMode : Bool) (passwd group : Option Str) : readEtcPasswd testMode passwd group ≠ .panic := by
  unfold readEtcPasswd
  split
  · refine R.bind_not_panic ?_ fun _ _ => R.bind_not_panic ?_ fun _ _ => by simp
    · unfold osGetUid
      split
      · simp
      · exact findId_not_panic _ _ _
    · unfold osGetGid
      split
      · simp
      · exact findId_not_panic _ _ _
  · simp

/-! ## The programs -/

/-- **C76** (letmeind, the part that holds). Whatever the options, the configuration file, the run directory, the sockets passed and the outcome of the system calls: with a
limit of connections that the semaphore can take, start-up ends with an error or with the running daemon, never with a panic. -/
theorem C76_letmeind_partial (o : LmOpts) (w : LmWorld) (hs : w.sockets ≠ .panic) (hl : o.limit ≤ 2305843009213693951) : lmMain o w ≠ .panic := by
  unfold lmMain
  refine R.bind_not_panic (fsCalm_createDir _ _ _ _) fun _ _ => R.bind_not_panic (C33_failure_changes_nothing ..).1 fun _ _ =>
    R.bind_not_panic (serverNew_not_panic _ _ hs _ _ _ _) fun _ _ => R.bind_not_panic (fsCalm_makePidfile _ _ _ _ _) fun _ _ =>
    R.bind_not_panic (installFor_not_panic (.inr (.inl rfl)) _ _ _ _) fun _ _ => R.bind_not_panic ?_ fun _ _ => by simp
  unfold lmStart
  rw [if_neg (by unfold MAX_PERMITS; omega)]
  simp

/-- **C76** (letmeinfwd, the part that holds). -/
theorem C76_letmeinfwd_partial (o : FwdOpts) (w : FwdWorld) (hs : w.sockets ≠ .panic) (hl : o.limit ≤ 2305843009213693951) : (fwdMain o w).2 ≠ .panic := by
  unfold fwdMain
  cases h1 : readEtcPasswd o.testMode w.passwd w.group with
  | panic => exact absurd h1 (readEtcPasswd_not_panic _ _ _)
  | err => simp
  | ok ids =>
    simp only
    have h2 := fsCalm_makeRunSubdir w.fsEnv o.testMode ids.2 w.fs
    cases h3 : fwdMakeRunSubdir w.fsEnv o.testMode ids.2 w.fs with
    | mk res states fs =>
      rw [h3] at h2
      cases res with
      | panic => exact absurd rfl h2
      | err => simp
      | ok _ =>
        simp only
        have h4 := (C33_failure_changes_nothing w.f64 w.order (Config.new .Server) o.config w.file).1
        cases h5 : (Config.new .Server).load w.f64 w.order o.config w.file with
        | mk r conf =>
          rw [h5] at h4
          cases r with
          | panic => exact absurd rfl h4
          | err => simp
          | ok _ =>
            simp only
            have h6 := C49_start_no_panic conf w.kernel w.nftOk
            cases h7 : NftFirewall.new conf w.kernel w.nftOk with
            | mk r k =>
              rw [h7] at h6
              cases r with
              | panic => exact absurd rfl h6
              | err => simp
              | ok fw =>
                simp only
                refine R.bind_not_panic (x := fwdReady o w conf ids.2 fs) ?_ fun r _ => ?_
                · unfold fwdReady
                  refine R.bind_not_panic ?_ fun _ _ => R.bind_not_panic (fsCalm_makePidfile _ _ _ _ _) fun _ _ =>
                    R.bind_not_panic (installFor_not_panic (.inr (.inr rfl)) _ _ _ _) fun _ _ => by simp
                  unfold fwdListen
                  split
                  · split
                    · split
                      · simp
                      · split <;> simp
                    · rename_i hx; exact absurd hx hs
                    · simp
                  · have h8 := fsCalm_bindSocket w.fsEnv o.testMode ids.2 fs
                    cases h9 : fwdBindSocket w.fsEnv o.testMode ids.2 fs with
                    | mk res states fs' =>
                      rw [h9] at h8
                      cases res with
                      | panic => exact absurd rfl h8
                      | err => simp
                      | ok _ => simp
                · rw [if_neg (by unfold MAX_PERMITS; omega)]
                  simp

/-- **C76** (client). The client never panics, except where the random generator is unusable: the exchange of messages (C13) and `gen-key` check it. -/
theorem C76_letmein {o : ClientOpts} {w : ClientWorld} (ho : IsOrder w.order) (hx : ∀ u r k act, w.exchange u r k act ≠ .panic)
    (hr : ∀ user, o.command = some (.genKey user) → ¬ BadRandom w.rand) : (clientMain o w).2 ≠ .panic := by
  unfold clientMain
  split
  · simp
  · unfold clientAsyncMain
    have h4 := (C33_failure_changes_nothing w.f64 w.order (Config.new .Client) o.config w.file).1
    have h5 := (C38_port_enabled_invariant ho (f64 := w.f64) o.config w.file).2 _ ((C38_port_enabled_invariant ho (f64 := w.f64) o.config w.file).1 .Client)
    cases hl : (Config.new .Client).load w.f64 w.order o.config w.file with
    | mk r conf =>
      rw [hl] at h4 h5
      cases r with
      | panic => exact absurd rfl h4
      | err => simp
      | ok _ =>
        simp only
        cases hi : installFor letmeinAllow w.platform o.seccomp conf w.installOk with
        | panic => exact absurd hi (installFor_not_panic (.inl rfl) _ _ _ _)
        | err => simp
        | ok f =>
          simp only
          unfold clientCommand
          cases hc : o.command with
          | none => simp
          | some c =>
            cases c with
            | genKey user =>
              simp only
              cases hs : secureRandom KEY_SIZE w.rand with
              | ok k => simp
              | err => simp
              | panic => exact absurd ((secureRandom_panic_iff _ (by decide) _).1 hs) (hr user hc)
            | knock host port user sp tcp udp v4 v6 =>
              simp only
              cases hk : conf.key (user.getD conf.defaultUser) with
              | none => simp [runKnock, hk]
              | some k =>
                cases hid : conf.resourceIdByPort port (some (user.getD conf.defaultUser)) with
                | none => simp [runKnock, hk, hid]
                | some id =>
                  have hu : user = some (user.getD conf.defaultUser) ∨ (user = none ∧ conf.defaultUser = user.getD conf.defaultUser) := by
                    cases user with
                    | none => exact .inr ⟨rfl, rfl⟩
                    | some u => exact .inl rfl
                  exact (C45_families_and_verdict w.parseIp w.dns w.opens (exchange := w.exchange) h5 host v4 v6 sp tcp udp port user o.dns o.dnsCrypt hu hk hid
                    (hx _ _ _)).2.2.2.2.2

/-- **C76 is false**: with a larger limit (`--num-connections`) letmeind panics although nothing else is wrong. -/
theorem C76_negation : ∃ o w, o.limit = 2305843009213693952 ∧ w.sockets ≠ .panic ∧ lmMain o w = .panic :=
  ⟨{ config := "/opt/letmein/etc/letmeind.conf".toList, limit := 2305843009213693952, noSystemd := false, seccomp := none }, lmWorld, rfl, by simp [lmWorld],
    by
      have h : (match lmMain { config := "/opt/letmein/etc/letmeind.conf".toList, limit := 2305843009213693952, noSystemd := false, seccomp := none } lmWorld with
        | .panic => true
        | _ => false) = true := by decide +kernel
      revert h
      cases lmMain { config := "/opt/letmein/etc/letmeind.conf".toList, limit := 2305843009213693952, noSystemd := false, seccomp := none } lmWorld <;> simp⟩

/-- **C76 is false** (letmeinfwd). The same there, and the rules of the control port have been written by then and stay. -/
theorem C76_negation_fwd : ∃ o w, o.limit = 2305843009213693952 ∧ w.sockets ≠ .panic ∧ (fwdMain o w).2 = .panic ∧
    (fwdMain o w).1.rules ≠ w.kernel.rules :=
  ⟨{ config := "/opt/letmein/etc/letmeind.conf".toList, limit := 2305843009213693952, noSystemd := true, seccomp := none, testMode := false }, fwdWorld, rfl,
    by simp [fwdWorld], by
      have h : (match (fwdMain { config := "/opt/letmein/etc/letmeind.conf".toList, limit := 2305843009213693952, noSystemd := true, seccomp := none, testMode := false } fwdWorld).2 with
        | .panic => true
        | _ => false) = true := by decide +kernel
      revert h
      cases (fwdMain { config := "/opt/letmein/etc/letmeind.conf".toList, limit := 2305843009213693952, noSystemd := true, seccomp := none, testMode := false } fwdWorld).2 <;> simp,
    by decide +kernel⟩

/-- The hypotheses are met by the worlds of the examples of C66; with a broken configuration file start-up fails with an error. -/
example : lmWorld.sockets ≠ .panic ∧ fwdWorld.sockets ≠ .panic ∧ ¬ BadRandom (some exampleKey) ∧
    (match lmMain { config := "/opt/letmein/etc/letmeind.conf".toList, limit := 8, noSystemd := false, seccomp := none } { lmWorld with file := .text "?".toList } with
      | .err => true
      | _ => false) = true := by
  refine ⟨by simp [lmWorld], by simp [fwdWorld], ?_, by decide +kernel⟩
  rw [← secureRandom_panic_iff _ (by decide)]
  decide +kernel

end Letmein.Props
