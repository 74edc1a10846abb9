import Verif.Spec.Takeover
import Verif.Props.RunDir
import Verif.Props.EndToEnd

/-!
# Property C102: a running letmeind and further starts of letmeind
-/

namespace Letmein.Props

open Letmein Prog Spec

/-! ## What a start does to the pid file -/

theorem createDir_keeps (env : FsEnv) (ok : Bool) (fs : Fs) :
    (∀ s ∈ (createDirIfNotExists env ok lmDirPath fs).states, s lmPidPath = fs lmPidPath) ∧
      (createDirIfNotExists env ok lmDirPath fs).fs lmPidPath = fs lmPidPath := by
  unfold createDirIfNotExists
  show (∀ s ∈ (FsM.bind (fsStat lmDirPath) _ fs).states, _) ∧ (FsM.bind (fsStat lmDirPath) _ fs).fs lmPidPath = _
  simp only [FsM.bind, fsStat, List.nil_append]
  cases hd : fs lmDirPath with
  | none =>
    simp only [mkdirCall, fsCall, hd]
    cases ok with
    | false => simp
    | true =>
      have : (fs.put lmDirPath (some ⟨.dir, env.uid, env.gid, 511 &&& (511 ^^^ (env.umask &&& 511))⟩)) lmPidPath = fs lmPidPath :=
        put_other _ _ (by decide)
      simp [this]
  | some n =>
    simp only
    split
    · simp [FsM.fail]
    · show (∀ s ∈ (FsM.pure () fs).states, _) ∧ (FsM.pure () fs).fs lmPidPath = _
      simp [FsM.pure]

theorem lmDirectory_keeps {o : LmOpts} {w : LmWorld} (h : ¬ GetsSockets o w) :
    (∀ s ∈ (lmDirectory o w).1, s lmPidPath = w.fs lmPidPath) ∧ (lmDirectory o w).2 lmPidPath = w.fs lmPidPath := by
  have hk := createDir_keeps w.fsEnv (w.fsEnv.ok 0) w.fs
  unfold lmDirectory
  dsimp only
  split
  · split
    · rename_i u conf hl
      split
      · rename_i l hs
        exact absurd ⟨conf, l, hl, hs⟩ h
      · exact hk
    · exact hk
  · exact hk

/-- A successful start: it got its sockets, and its pid is in the file. -/
theorem lmMain_directory {o : LmOpts} {w : LmWorld} {p : LmProc} (h : lmMain o w = .ok p) :
    GetsSockets o w ∧ fsRead (lmDirectory o w).2 lmPidPath = some (pidFileText w.pid) := by
  unfold lmMain at h
  unfold lmDirectory GetsSockets
  dsimp only at h ⊢
  cases hd : (createDirIfNotExists w.fsEnv (w.fsEnv.ok 0) lmDirPath w.fs).res with
  | err => rw [hd] at h; simp at h
  | panic => rw [hd] at h; simp at h
  | ok u =>
    rw [hd, R.bind_ok] at h
    cases hl : (Config.new .Server).load w.f64 w.order o.config w.file with
    | mk r conf =>
      rw [hl] at h
      cases r with
      | err => simp at h
      | panic => simp at h
      | ok u =>
        rw [R.bind_ok] at h
        cases hs : serverNew conf.port o.noSystemd w.sockets w.usable w.notifyOk w.bindTcpOk w.bindUdpOk with
        | err => simp [hs] at h
        | panic => simp [hs] at h
        | ok l =>
          simp only [hs] at h
          rw [R.bind_ok] at h
          refine ⟨⟨conf, l, rfl, hs⟩, ?_⟩
          simp only [hs]
          cases hm : (makePidfile w.fsEnv lmPidPath w.chunks w.pid (createDirIfNotExists w.fsEnv (w.fsEnv.ok 0) lmDirPath w.fs).fs).res with
          | err => rw [hm] at h; simp at h
          | panic => rw [hm] at h; simp at h
          | ok u => exact makePidfile_content _ _ _ _ _ hm

/-! ## C102 -/

theorem keeps_step {h : LmHost} {e : LmHostEvent} (hk : KeepsPidFile h e) : (lmHostStep h e).2.fs lmPidPath = h.fs lmPidPath := by
  cases e with
  | lmStart o w =>
    have hk' := (lmDirectory_keeps (o := o) (w := { w with fs := h.fs }) (by simpa [KeepsPidFile, GetsSockets] using hk)).2
    simp only [lmHostStep]
    split <;> exact hk'
  | lmKilled o w i =>
    have hk' := (lmDirectory_keeps (o := o) (w := { w with fs := h.fs }) (by simpa [KeepsPidFile, GetsSockets] using hk)).1
    simp only [lmHostStep, List.getD_eq_getElem?_getD]
    cases hg : (lmDirectory o { w with fs := h.fs }).1[i]? with
    | none => rfl
    | some s => exact hk' s (List.mem_of_getElem? hg)
  | lmEnd pid => rfl
  | fwdStart passwd group => simp only [lmHostStep]; split <;> rfl
  | connect cred =>
    simp only [lmHostStep]
    split
    · rfl
    · split <;> rfl
  | others fs => exact hk

theorem keeps_run (evs : List LmHostEvent) {h : LmHost} (hk : KeepPidFile h evs) : (lmHostRun h evs).fs lmPidPath = h.fs lmPidPath := by
  induction evs generalizing h with
  | nil => rfl
  | cons e rest ih => exact (ih hk.2).trans (keeps_step hk.1)

theorem connect_iff {h : LmHost} {ids : UInt32 × UInt32} (hf : h.fwd = some ids) {pid : UInt32} (hp : pid.toNat ≤ 2147483647)
    (hr : fsRead h.fs lmPidPath = some (pidFileText pid)) (cred : Option Cred) :
    ((lmHostStep h (.connect cred)).1 = true ↔ cred = some ⟨some (pid.toNat : Int), ids.1, ids.2⟩) ∧
    ((lmHostStep h (.connect cred)).1 = true ↔ (lmHostStep h (.connect cred)).2.fwd = some ids) := by
  have hacc := fwAccept_iff false ids cred (fsRead h.fs lmPidPath)
  rw [hr, pidFileText_parse, if_pos hp] at hacc
  simp only [lmHostStep, hf]
  rw [hr]
  cases ha : fwAccept false ids cred (some (pidFileText pid)) with
  | ok u =>
    rw [ha] at hacc
    obtain ⟨c, q, h1, h2, h3, h4⟩ := hacc.1 rfl
    injection h3 with h3
    subst h3
    obtain ⟨cp, cu, cg⟩ := c
    simp only [Bool.false_eq_true, false_or] at h2 h4
    subst h2
    simp [h1, h4, hf]
  | err =>
    simp only [Bool.false_eq_true, false_iff, reduceCtorEq, not_false_eq_true, and_true]
    intro hc
    rw [ha] at hacc
    cases hacc.2 ⟨_, _, hc, rfl, rfl, .inr ⟨rfl, rfl⟩⟩
  | panic =>
    simp only [Bool.false_eq_true, false_iff, reduceCtorEq, not_false_eq_true, and_true]
    intro hc
    rw [ha] at hacc
    cases hacc.2 ⟨_, _, hc, rfl, rfl, .inr ⟨rfl, rfl⟩⟩

/-- **C102** (partial: further starts get no sockets). After letmeind has been started, and whatever happens then, as long as no other start of letmeind gets its
sockets: a running letmeinfwd serves a connection if and only if it comes from the process with that letmeind's pid under letmeind's account, and any other connection
ends letmeinfwd. -/
theorem C102_served_partial (h : LmHost) (o : LmOpts) (w : LmWorld) {p : LmProc} (hs : lmMain o { w with fs := h.fs } = .ok p)
    (hp : w.pid.toNat ≤ 2147483647) (evs : List LmHostEvent) (hk : KeepPidFile (lmHostStep h (.lmStart o w)).2 evs)
    {ids : UInt32 × UInt32} (hf : (lmHostRun (lmHostStep h (.lmStart o w)).2 evs).fwd = some ids) (cred : Option Cred) :
    ((lmHostStep (lmHostRun (lmHostStep h (.lmStart o w)).2 evs) (.connect cred)).1 = true ↔
      cred = some ⟨some (w.pid.toNat : Int), ids.1, ids.2⟩) ∧
    ((lmHostStep (lmHostRun (lmHostStep h (.lmStart o w)).2 evs) (.connect cred)).1 = true ↔
      (lmHostStep (lmHostRun (lmHostStep h (.lmStart o w)).2 evs) (.connect cred)).2.fwd = some ids) := by
  refine connect_iff hf hp ?_ cred
  have h1 := keeps_run evs hk
  unfold fsRead
  rw [h1]
  have h2 := (lmMain_directory hs).2
  unfold fsRead at h2
  simp only [lmHostStep, hs]
  exact h2

theorem parsePort_some {s : Str} {cp : ControlPort} (h : parsePort s = .ok cp) : cp.tcp = true ∨ cp.udp = true := by
  unfold parsePort at h
  cases hm : parseMap s with
  | err => simp [hm] at h
  | panic => simp [hm] at h
  | ok m =>
    rw [hm, R.bind_ok] at h
    cases hi : portItems { port := PORT, tcp := false, udp := false } m with
    | err => simp [hi] at h
    | panic => simp [hi] at h
    | ok c =>
      rw [hi, R.bind_ok] at h
      injection h with h
      subst h
      obtain ⟨cp, t, u⟩ := c
      cases t <;> cases u <;> simp

theorem load_server_port {f64 : F64Secs} {order : IterOrder} {path : Str} {file : FileContent} {conf : Config}
    (h : (Config.new .Server).load f64 order path file = (.ok (), conf)) : conf.port.tcp = true ∨ conf.port.udp = true := by
  unfold Config.load at h
  cases hi : Ini.newFromFile file with
  | err => rw [hi] at h; simp [Config.new] at h
  | panic => rw [hi] at h; simp at h
  | ok ini =>
    simp only [hi, Config.loadIni] at h
    cases hv : (Config.new .Server).values f64 order ini with
    | err => simp [hv] at h
    | panic => simp [hv] at h
    | ok c =>
      simp only [hv, Prod.mk.injEq, true_and] at h
      subst h
      show c.port.tcp = true ∨ c.port.udp = true
      unfold Config.values at hv
      cases h1 : getDebug ini with
      | err => simp [h1] at hv
      | panic => simp [h1] at hv
      | ok d =>
        simp only [h1, R.bind_ok] at hv
        cases h2 : getPort ini with
        | err => simp [h2] at hv
        | panic => simp [h2] at hv
        | ok cp =>
          have hcp : cp.tcp = true ∨ cp.udp = true := by
            unfold getPort getOpt at h2
            split at h2
            · exact parsePort_some h2
            · injection h2 with h2; subst h2; left; rfl
          have : c.port = cp := by
            simp only [h2, R.bind_ok] at hv
            generalize getControlTimeout f64 ini = a1 at hv
            generalize getControlErrorPolicy ini = a2 at hv
            generalize getSeccomp ini = a3 at hv
            generalize getKeys _ = a4 at hv
            generalize getResources _ = a5 at hv
            generalize onlyFor _ _ (getDefaultUser ini) _ = a6 at hv
            generalize onlyFor _ _ (getNftExe ini) _ = a7 at hv
            generalize onlyFor _ _ (getNftFamily ini) _ = a8 at hv
            generalize onlyFor _ _ (getNftTable ini) _ = a9 at hv
            generalize onlyFor _ _ (getNftChainInput ini) _ = a10 at hv
            generalize onlyFor _ _ (getNftTimeout f64 ini) _ = a11 at hv
            cases a1 with
            | ok a1 => ?_
            | err => simp at hv
            | panic => simp at hv
            cases a2 with
            | ok a2 => ?_
            | err => simp at hv
            | panic => simp at hv
            cases a3 with
            | ok a3 => ?_
            | err => simp at hv
            | panic => simp at hv
            cases a4 with
            | ok a4 => ?_
            | err => simp at hv
            | panic => simp at hv
            cases a5 with
            | ok a5 => ?_
            | err => simp at hv
            | panic => simp at hv
            cases a6 with
            | ok a6 => ?_
            | err => simp at hv
            | panic => simp at hv
            cases a7 with
            | ok a7 => ?_
            | err => simp at hv
            | panic => simp at hv
            cases a8 with
            | ok a8 => ?_
            | err => simp at hv
            | panic => simp at hv
            cases a9 with
            | ok a9 => ?_
            | err => simp at hv
            | panic => simp at hv
            cases a10 with
            | ok a10 => ?_
            | err => simp at hv
            | panic => simp at hv
            cases a11 with
            | ok a11 => ?_
            | err => simp at hv
            | panic => simp at hv
            simp only [R.bind_ok] at hv
            injection hv with hv
            rw [← hv]
          rw [this]
          exact hcp

/-- **C102** (the usual case). A second letmeind without sockets from systemd, whose configured port cannot be bound because the first one listens on it, does not get
its sockets: it does no harm. -/
theorem C102_port_in_use (o : LmOpts) (w : LmWorld) (hn : o.noSystemd = true) (ht : w.bindTcpOk = false) (hu : w.bindUdpOk = false) :
    ¬ GetsSockets o w := by
  rintro ⟨conf, l, hl, hs⟩
  have hp := load_server_port hl
  simp only [serverNew, serverFromSystemd, hn, if_true, R.bind_ok, Option.isNone_none, Bool.and_self, bindIf, ht, hu] at hs
  rcases hp with hp | hp
  · simp [hp] at hs
  · cases htc : conf.port.tcp <;> simp [hp, htc] at hs

theorem createDir_ok {env : FsEnv} {ok : Bool} {fs : Fs} :
    (createDirIfNotExists env ok lmDirPath fs).res = .ok () ↔
      (fs lmDirPath = none ∧ ok = true) ∨ ∃ n, fs lmDirPath = some n ∧ n.kind = .dir := by
  unfold createDirIfNotExists
  show (FsM.bind (fsStat lmDirPath) _ fs).res = _ ↔ _
  simp only [FsM.bind, fsStat, List.nil_append]
  cases hd : fs lmDirPath with
  | none => cases ok <;> simp [mkdirCall, fsCall, hd]
  | some n =>
    simp only
    split
    · rename_i hk
      simp [FsM.fail, hk]
    · rename_i hk
      show (FsM.pure () fs).res = _ ↔ _
      simp [FsM.pure, Classical.not_not.1 hk]

/-- A file is there and is written with one call: if it can be opened, it is empty or has the new text; otherwise it is as before. -/
theorem makePidfile_once {env : FsEnv} {pid : UInt32} {fs : Fs} {c : Str} (hr : fsRead fs lmPidPath = some c) :
    fsRead (makePidfile env lmPidPath [] pid fs).fs lmPidPath =
      some (if env.ok 7 then (if env.ok 8 then pidFileText pid else []) else c) := by
  obtain ⟨u, g, m, hn⟩ : ∃ u g m, fs lmPidPath = some ⟨.file c, u, g, m⟩ := by
    unfold fsRead at hr
    split at hr
    · rename_i d u g m hn
      injection hr with hr
      subst hr
      exact ⟨u, g, m, hn⟩
    · cases hr
  unfold makePidfile
  show fsRead (FsM.bind _ _ fs).fs lmPidPath = _
  simp only [FsM.bind, openTruncCall, fsCall, hn]
  cases h7 : env.ok 7 with
  | false => simp [fsRead, hn]
  | true =>
    have hne : pidFileText pid ≠ [] := by simp [pidFileText]
    simp only [if_true]
    cases ht : pidFileText pid with
    | nil => exact absurd ht hne
    | cons x t =>
      simp only [writeAll, writeCall, fsCall, put_self, Nat.add_zero]
      cases h8 : env.ok 8 with
      | false => simp [fsRead, put_self]
      | true => simp [fsRead, put_self]

theorem lmStart_fs (h : LmHost) (o : LmOpts) (w : LmWorld) : (lmHostStep h (.lmStart o w)).2.fs = (lmDirectory o { w with fs := h.fs }).2 ∧
    (lmHostStep h (.lmStart o w)).2.fwd = h.fwd := by
  simp only [lmHostStep]
  split <;> exact ⟨rfl, rfl⟩

theorem connect_wrong {h : LmHost} {ids : UInt32 × UInt32} (hf : h.fwd = some ids) {pid : Int}
    (hr : getLetmeindPid (fsRead h.fs lmPidPath) ≠ .ok pid) (uid gid : UInt32) :
    (lmHostStep h (.connect (some ⟨some pid, uid, gid⟩))).1 = false ∧ (lmHostStep h (.connect (some ⟨some pid, uid, gid⟩))).2.fwd = none := by
  have hacc := fwAccept_iff false ids (some ⟨some pid, uid, gid⟩) (fsRead h.fs lmPidPath)
  simp only [lmHostStep, hf]
  cases ha : fwAccept false ids (some ⟨some pid, uid, gid⟩) (fsRead h.fs lmPidPath) with
  | ok u =>
    rw [ha] at hacc
    obtain ⟨c, q, h1, h2, h3, _⟩ := hacc.1 rfl
    injection h1 with h1
    subst h1
    injection h2 with h2
    subst h2
    exact absurd h3 hr
  | err => exact ⟨rfl, rfl⟩
  | panic => exact ⟨rfl, rfl⟩

/-- **C102** (exactly when a start disturbs). While letmeinfwd is there and serves the letmeind with this pid, another letmeind is started that writes its pid with one
call: afterwards the former is still served if and only if the other start did not have the directory, did not get its sockets, or could not open the pid
file. Whether it then succeeds does not matter. -/
theorem C102_disturbed_iff (h : LmHost) (o : LmOpts) (w : LmWorld) (pid : UInt32) (hp : pid.toNat ≤ 2147483647) {ids : UInt32 × UInt32}
    (hf : h.fwd = some ids) (hr : fsRead h.fs lmPidPath = some (pidFileText pid)) (hc : w.chunks = []) (hne : w.pid ≠ pid) :
    (lmHostStep (lmHostStep h (.lmStart o w)).2 (.connect (some ⟨some (pid.toNat : Int), ids.1, ids.2⟩))).1 = true ↔
      ¬ (DirReady w h.fs ∧ GetsSockets o w ∧ w.fsEnv.ok 7 = true) := by
  classical
  obtain ⟨hfs, hfw⟩ := lmStart_fs h o w
  have hf' := hfw.trans hf
  have hdk := (createDir_keeps w.fsEnv (w.fsEnv.ok 0) h.fs).2
  have hrd : fsRead (createDirIfNotExists w.fsEnv (w.fsEnv.ok 0) lmDirPath h.fs).fs lmPidPath = some (pidFileText pid) := by
    unfold fsRead at hr ⊢
    rw [hdk]
    exact hr
  have same : fsRead (lmDirectory o { w with fs := h.fs }).2 lmPidPath = some (pidFileText pid) →
      (lmHostStep (lmHostStep h (.lmStart o w)).2 (.connect (some ⟨some (pid.toNat : Int), ids.1, ids.2⟩))).1 = true := fun hs =>
    (connect_iff hf' hp (by rw [hfs]; exact hs) _).1.2 rfl
  have key : fsRead (lmDirectory o { w with fs := h.fs }).2 lmPidPath =
      some (if DirReady w h.fs ∧ GetsSockets o w ∧ w.fsEnv.ok 7 = true then (if w.fsEnv.ok 8 then pidFileText w.pid else []) else pidFileText pid) := by
    by_cases hg : GetsSockets o w
    · by_cases hd : DirReady w h.fs
      · have hd' := (createDir_ok (env := w.fsEnv)).2 hd
        obtain ⟨conf, l, hl, hs⟩ := hg
        have hg : GetsSockets o w := ⟨conf, l, hl, hs⟩
        simp only [lmDirectory, hd', hl, hs, hc, makePidfile_once hrd, hd, hg, true_and]
      · have hd' : (createDirIfNotExists w.fsEnv (w.fsEnv.ok 0) lmDirPath h.fs).res ≠ .ok () := fun x => hd (createDir_ok.1 x)
        rw [if_neg (fun x => hd x.1)]
        unfold lmDirectory
        dsimp only
        split
        · rename_i u hu
          exact absurd hu hd'
        · exact hrd
    · rw [if_neg (fun x => hg x.2.1)]
      have := (lmDirectory_keeps (o := o) (w := { w with fs := h.fs }) (by simpa [GetsSockets] using hg)).2
      unfold fsRead at hr ⊢
      rw [this]
      exact hr
  by_cases hall : DirReady w h.fs ∧ GetsSockets o w ∧ w.fsEnv.ok 7 = true
  · rw [if_pos hall] at key
    have hw : getLetmeindPid (fsRead (lmHostStep h (.lmStart o w)).2.fs lmPidPath) ≠ .ok (pid.toNat : Int) := by
      rw [hfs, key]
      split
      · rw [pidFileText_parse]
        split
        · intro he
          injection he with he
          exact hne (UInt32.toNat_inj.1 (by omega))
        · intro he; cases he
      · rw [show getLetmeindPid (some []) = .err by decide]
        intro he; cases he
    rw [(connect_wrong hf' hw ids.1 ids.2).1]
    simp [hall]
  · rw [if_neg hall] at key
    simp [same key, hall]

/-- The code keeps `P` at every moment. -/
def FsKeeps {α : Type} (P : Fs → Prop) (p : FsM α) : Prop := ∀ fs, P fs → P (p fs).fs ∧ ∀ s ∈ (p fs).states, P s

theorem fsKeeps_bind {α β : Type} {P : Fs → Prop} {p : FsM α} {f : α → FsM β} (h1 : FsKeeps P p) (h2 : ∀ a, FsKeeps P (f a)) :
    FsKeeps P (p >>= f) := by
  intro fs hp
  obtain ⟨a1, a2⟩ := h1 fs hp
  show P (FsM.bind p f fs).fs ∧ ∀ s ∈ (FsM.bind p f fs).states, P s
  unfold FsM.bind
  cases hr : (p fs).res with
  | ok x =>
    simp only [hr]
    obtain ⟨b1, b2⟩ := h2 x _ a1
    refine ⟨b1, fun s hs => ?_⟩
    rcases List.mem_append.1 hs with h | h
    · exact a2 s h
    · exact b2 s h
  | err => simp only [hr]; exact ⟨a1, a2⟩
  | panic => simp only [hr]; exact ⟨a1, a2⟩

theorem fsKeeps_pure {α : Type} {P : Fs → Prop} {a : α} : FsKeeps P (pure a : FsM α) := fun _ hp =>
  ⟨hp, fun _ hs => absurd hs List.not_mem_nil⟩
theorem fsKeeps_fail {α : Type} {P : Fs → Prop} : FsKeeps P (FsM.fail : FsM α) := fun _ hp => ⟨hp, fun _ hs => absurd hs List.not_mem_nil⟩
theorem fsKeeps_stat {P : Fs → Prop} {path : Str} : FsKeeps P (fsStat path) := fun _ hp => ⟨hp, fun _ hs => absurd hs List.not_mem_nil⟩

theorem fsKeeps_call {P : Fs → Prop} {ok : Bool} {f : Fs → Option Fs} (h : ∀ fs fs', P fs → f fs = some fs' → P fs') :
    FsKeeps P (fsCall ok f) := by
  intro fs hp
  unfold fsCall
  cases ok with
  | false => simp [hp]
  | true =>
    simp only [if_true]
    cases hf : f fs with
    | none => simp [hp]
    | some fs' => simp [h fs fs' hp hf]

/-- Writing to one path keeps what is at another. -/
theorem put_keeps {fs : Fs} {path q : Str} {c n : Option Node} (hq : q ≠ path) (h : fs q = c) : (fs.put path n) q = c := by
  rw [put_other _ _ hq]; exact h

theorem setOwnerMode_keeps {ok1 ok2 : Bool} {path q : Str} {uid gid : UInt32} {mode : Nat} {c : Option Node} (hq : q ≠ path) :
    FsKeeps (fun s => s q = c) (setOwnerMode ok1 ok2 path uid gid mode) := by
  unfold setOwnerMode
  refine fsKeeps_bind fsKeeps_stat fun n => ?_
  cases n with
  | none => exact fsKeeps_fail
  | some n =>
    refine fsKeeps_bind (fsKeeps_call fun fs fs' hp hf => ?_) fun _ => fsKeeps_call fun fs fs' hp hf => ?_ <;>
    · cases hn : fs path with
      | none => rw [hn] at hf; cases hf
      | some n => rw [hn] at hf; simp only [Option.map_some, Option.some.injEq] at hf; subst hf; exact put_keeps hq hp

theorem writeAll_keeps {path q : Str} {c : Option Node} (hq : q ≠ path) : ∀ (chunks : List Nat) (ok : Nat → Bool) (text : Str),
    FsKeeps (fun s => s q = c) (writeAll ok path chunks text) := by
  have hw : ∀ ok data, FsKeeps (fun s => s q = c) (writeCall ok path data) := by
    intro ok data
    refine fsKeeps_call fun fs fs' hp hf => ?_
    split at hf
    · injection hf with hf; subst hf; exact put_keeps hq hp
    · cases hf
  intro chunks
  induction chunks with
  | nil =>
    intro ok text
    cases text with
    | nil => exact fsKeeps_pure
    | cons x t => exact hw _ _
  | cons k chunks ih =>
    intro ok text
    cases text with
    | nil => exact fsKeeps_pure
    | cons x t => exact fsKeeps_bind (hw _ _) fun _ => ih _ _

/-- **C102** (letmeinfwd's start). What letmeinfwd does in the run directory when it starts leaves letmeind's pid file alone at every moment, whatever fails. -/
theorem C102_fwd_start (env : FsEnv) (testMode : Bool) (gid : UInt32) (between : Bool) (chunks : List Nat) (pid : UInt32) (fs : Fs) :
    (fwdFsStart env testMode gid between chunks pid fs).fs lmPidPath = fs lmPidPath ∧
      ∀ s ∈ (fwdFsStart env testMode gid between chunks pid fs).states, s lmPidPath = fs lmPidPath := by
  have key : FsKeeps (fun s => s lmPidPath = fs lmPidPath) (fwdFsStart env testMode gid between chunks pid) := by
    have hd : lmPidPath ≠ fwdDirPath := by decide
    have hk : lmPidPath ≠ fwdSockPath := by decide
    have hp : lmPidPath ≠ fwdPidPath := by decide
    unfold fwdFsStart
    refine fsKeeps_bind ?_ fun _ => fsKeeps_bind ?_ fun _ => fsKeeps_bind ?_ fun _ => ?_
    · unfold fwdMakeRunSubdir
      refine fsKeeps_bind ?_ fun _ => ?_
      · unfold createDirIfNotExists
        refine fsKeeps_bind fsKeeps_stat fun n => ?_
        cases n with
        | none =>
          refine fsKeeps_call fun s s' hs hf => ?_
          split at hf
          · injection hf with hf; subst hf; exact put_keeps hd hs
          · cases hf
        | some n =>
          simp only
          split
          · exact fsKeeps_fail
          · exact fsKeeps_pure
      · split
        · exact setOwnerMode_keeps hd
        · exact fsKeeps_pure
    · unfold fsOther
      split
      · exact fsKeeps_pure
      · exact fsKeeps_fail
    · unfold fwdBindSocket
      refine fsKeeps_bind ?_ fun _ => fsKeeps_bind ?_ fun _ => ?_
      · unfold fwdRemoveSocket
        refine fsKeeps_bind fsKeeps_stat fun n => ?_
        split
        · refine fsKeeps_call fun s s' hs hf => ?_
          cases hn : s fwdSockPath with
          | none => rw [hn] at hf; cases hf
          | some n => rw [hn] at hf; simp only [Option.map_some, Option.some.injEq] at hf; subst hf; exact put_keeps hk hs
        · exact fsKeeps_pure
      · refine fsKeeps_call fun s s' hs hf => ?_
        split at hf
        · injection hf with hf; subst hf; exact put_keeps hk hs
        · cases hf
      · split
        · exact setOwnerMode_keeps hk
        · exact fsKeeps_pure
    · unfold makePidfile
      refine fsKeeps_bind (fsKeeps_call fun s s' hs hf => ?_) fun _ => writeAll_keeps hp _ _ _
      split at hf
      · injection hf with hf; subst hf; exact put_keeps hp hs
      · split at hf
        · injection hf with hf; subst hf; exact put_keeps hp hs
        · cases hf
  exact key fs rfl

/-! ### Examples -/

/-- letmeinfwd and then letmeind (with sockets from systemd) are started on a host whose run directory is empty. -/
def takeoverEvs : List LmHostEvent := [.fwdStart (some lifePasswd) (some lifeGroup), .lmStart e2eLmOpts e2eLmWorld]
/-- The host before. -/
def emptyHost : LmHost := ⟨fun _ => none, [], none⟩
/-- Another letmeind, by hand: without systemd. -/
def byHand : LmOpts := { e2eLmOpts with noSystemd := true }
/-- Its configuration has another port, which it can bind. -/
def otherPort : LmWorld := { e2eLmWorld with file := .text "[GENERAL]\nport = 5801\n".toList, pid := 5678 }
/-- Its filter cannot be installed. -/
def noFilter : LmWorld := { otherPort with file := .text "[GENERAL]\nport = 5801\nseccomp = kill\n".toList, installOk := false }
/-- It has the same port. -/
def samePort : LmWorld := { e2eLmWorld with pid := 5678, bindTcpOk := false, bindUdpOk := false }
/-- letmeind's credentials. -/
def lmCred (pid : Int) : LmHostEvent := .connect (some ⟨some pid, 997, 996⟩)

/-- The letmeind with this pid connects after the event: whether it is served, and whether letmeinfwd is there afterwards. -/
def afterwards (h : LmHost) (e : LmHostEvent) (pid : UInt32) (ids : UInt32 × UInt32) : Bool × Bool :=
  let c := lmHostStep (lmHostStep h e).2 (.connect (some ⟨some (pid.toNat : Int), ids.1, ids.2⟩))
  (c.1, c.2.fwd.isSome)

theorem takeover_before : 1234 ∈ (lmHostRun emptyHost takeoverEvs).running ∧ (lmHostRun emptyHost takeoverEvs).fwd = some (997, 996) ∧
    afterwards (lmHostRun emptyHost takeoverEvs) (.lmEnd 0) 1234 (997, 996) = (true, true) := by decide +kernel
theorem takeover_ok : (lmHostStep (lmHostRun emptyHost takeoverEvs) (.lmStart byHand otherPort)).2.running = [5678, 1234] ∧
    afterwards (lmHostRun emptyHost takeoverEvs) (.lmStart byHand otherPort) 1234 (997, 996) = (false, false) := by decide +kernel
theorem takeover_failed : (lmHostStep (lmHostRun emptyHost takeoverEvs) (.lmStart byHand noFilter)).2.running = [1234] ∧
    afterwards (lmHostRun emptyHost takeoverEvs) (.lmStart byHand noFilter) 1234 (997, 996) = (false, false) := by decide +kernel
theorem takeover_killed : (lmHostStep (lmHostRun emptyHost takeoverEvs) (.lmKilled byHand otherPort 0)).2.running = [1234] ∧
    afterwards (lmHostRun emptyHost takeoverEvs) (.lmKilled byHand otherPort 0) 1234 (997, 996) = (false, false) := by decide +kernel

/-- **C102** (full statement is false). Reachable from nothing: a letmeind runs and is served by letmeinfwd. Another letmeind is started, successfully in the one case, and
not in the other (its filter cannot be installed); or it is killed between opening and writing its pid file. In all three cases the former one runs on, but its next
connection is refused, and letmeinfwd ends. -/
theorem C102_negation : ∃ evs pid ids, pid ∈ (lmHostRun emptyHost evs).running ∧ (lmHostRun emptyHost evs).fwd = some ids ∧
    afterwards (lmHostRun emptyHost evs) (.lmEnd 0) pid ids = (true, true) ∧
    (∃ o w, (lmHostStep (lmHostRun emptyHost evs) (.lmStart o w)).2.running = [w.pid, pid] ∧
      afterwards (lmHostRun emptyHost evs) (.lmStart o w) pid ids = (false, false)) ∧
    (∃ o w, (lmHostStep (lmHostRun emptyHost evs) (.lmStart o w)).2.running = [pid] ∧
      afterwards (lmHostRun emptyHost evs) (.lmStart o w) pid ids = (false, false)) ∧
    (∃ o w i, (lmHostStep (lmHostRun emptyHost evs) (.lmKilled o w i)).2.running = [pid] ∧
      afterwards (lmHostRun emptyHost evs) (.lmKilled o w i) pid ids = (false, false)) :=
  ⟨takeoverEvs, 1234, (997, 996), takeover_before.1, takeover_before.2.1, takeover_before.2.2, ⟨byHand, otherPort, takeover_ok⟩,
    ⟨byHand, noFilter, takeover_failed⟩, ⟨byHand, otherPort, 0, takeover_killed⟩⟩

/-- The hypotheses of `C102_served_partial` and `C102_port_in_use`: after the start a second letmeind with the same port is tried, is killed on another try, letmeinfwd is
started anew, and other files change; the first one is served. -/
example : ∃ p, lmMain e2eLmOpts { e2eLmWorld with fs := emptyHost.fs } = .ok p ∧
    let h := (lmHostStep emptyHost (.lmStart e2eLmOpts e2eLmWorld)).2
    let evs := [.lmStart byHand samePort, .lmEnd 77, .lmKilled byHand samePort 0, .fwdStart (some lifePasswd) (some lifeGroup), lmCred 1234, lmCred 1235,
      .fwdStart (some lifePasswd) (some lifeGroup)]
    KeepPidFile h evs ∧ (lmHostRun h evs).fwd = some (997, 996) ∧ (lmHostRun h evs).running = [1234] ∧
      (lmHostStep (lmHostRun h evs) (lmCred 1234)).1 = true ∧ (lmHostStep (lmHostRun h evs) (lmCred 5678)).1 = false := by
  have hn : ¬ GetsSockets byHand samePort := C102_port_in_use _ _ rfl rfl rfl
  have h : (match lmMain e2eLmOpts { e2eLmWorld with fs := emptyHost.fs } with | .ok _ => true | _ => false) = true := by decide +kernel
  split at h
  · rename_i p hp
    exact ⟨p, hp, ⟨hn, trivial, hn, trivial, trivial, trivial, trivial, trivial⟩, by decide +kernel⟩
  · cases h

/-- The hypotheses of `C102_disturbed_iff`, and both cases. -/
example : fsRead (lmHostRun emptyHost takeoverEvs).fs lmPidPath = some (pidFileText 1234) ∧ (lmHostRun emptyHost takeoverEvs).fwd = some (997, 996) ∧
    (lmHostStep (lmHostStep (lmHostRun emptyHost takeoverEvs) (.lmStart byHand samePort)).2 (lmCred 1234)).1 = true ∧
    (lmHostStep (lmHostStep (lmHostRun emptyHost takeoverEvs) (.lmStart byHand otherPort)).2 (lmCred 1234)).1 = false ∧
    (lmHostStep (lmHostStep (lmHostRun emptyHost takeoverEvs) (.lmStart byHand otherPort)).2 (lmCred 5678)).1 = true := by decide +kernel

end Letmein.Props
