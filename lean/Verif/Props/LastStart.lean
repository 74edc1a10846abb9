import Verif.Spec.LastStart
import Verif.Props.Takeover

/-!
# Property C103: who is served by letmeinfwd over any history of the host
-/

namespace Letmein.Props

open Letmein Prog Spec

/-! ## The last state is one of the states passed through -/

/-- The state at the end is the first one or one of those passed through. -/
def FsLast {α : Type} (p : FsM α) : Prop := ∀ fs, (p fs).fs = fs ∨ (p fs).fs ∈ (p fs).states

theorem fsLast_bind {α β : Type} {p : FsM α} {f : α → FsM β} (h1 : FsLast p) (h2 : ∀ a, FsLast (f a)) : FsLast (p >>= f) := by
  intro fs
  show (FsM.bind p f fs).fs = fs ∨ (FsM.bind p f fs).fs ∈ (FsM.bind p f fs).states
  unfold FsM.bind
  cases hr : (p fs).res with
  | ok x =>
    simp only [hr]
    rcases h2 x (p fs).fs with h | h
    · rw [h]
      rcases h1 fs with h' | h'
      · exact .inl h'
      · exact .inr (List.mem_append_left _ h')
    · exact .inr (List.mem_append_right _ h)
  | err => simp only [hr]; exact h1 fs
  | panic => simp only [hr]; exact h1 fs

theorem fsLast_pure {α : Type} {a : α} : FsLast (pure a : FsM α) := fun _ => .inl rfl

theorem fsLast_call {ok : Bool} {f : Fs → Option Fs} : FsLast (fsCall ok f) := by
  intro fs
  unfold fsCall
  split
  · exact .inr (by simp)
  · exact .inl rfl

theorem fsLast_writeAll {path : Str} : ∀ (chunks : List Nat) (ok : Nat → Bool) (text : Str), FsLast (writeAll ok path chunks text) := by
  intro chunks
  induction chunks with
  | nil =>
    intro ok text
    cases text with
    | nil => exact fsLast_pure
    | cons c t => exact fsLast_call
  | cons k chunks ih =>
    intro ok text
    cases text with
    | nil => exact fsLast_pure
    | cons c t => exact fsLast_bind fsLast_call fun _ => ih _ _

theorem fsLast_makePidfile {env : FsEnv} {path : Str} {chunks : List Nat} {pid : UInt32} : FsLast (makePidfile env path chunks pid) :=
  fsLast_bind fsLast_call fun _ => fsLast_writeAll _ _ _

/-! ## What a start leaves in the pid file -/

/-- Content that this start may have written. -/
def Written (w : LmWorld) (c : Option Str) : Prop :=
  ∃ t, c = some t ∧ t <+: pidFileText w.pid ∧ (w.chunks = [] → t = [] ∨ t = pidFileText w.pid)

theorem writeAll_nil_content {path : Str} (ok : Nat → Bool) (text done : Str) :
    FsTri (fun fs => fsRead fs path = some done) (fun fs => fsRead fs path = some (done ++ text)) (fun _ _ => True) (writeAll ok path [] text) := by
  cases text with
  | nil => exact fsTri_pure fun _ _ => trivial
  | cons c t =>
    rw [writeAll]
    refine fsTri_call fun fs fs' hp hf => ?_
    split at hf
    · rename_i d u g m hn
      injection hf with hf
      subst hf
      have hc : d = done := by simpa [fsRead, hn] using hp
      subst hc
      exact ⟨by simp [fsRead, put_self], trivial⟩
    · cases hf

theorem makePidfile_written (w : LmWorld) (env : FsEnv) (fs : Fs) :
    ∀ s, (s ∈ (makePidfile env lmPidPath w.chunks w.pid fs).states ∨ s = (makePidfile env lmPidPath w.chunks w.pid fs).fs) →
      s = fs ∨ Written w (fsRead s lmPidPath) := by
  have key : FsTri (fun _ => True) (fun s => Written w (fsRead s lmPidPath)) (fun _ _ => True) (makePidfile env lmPidPath w.chunks w.pid) := by
    unfold makePidfile
    refine fsTri_bind (M := fun _ s => fsRead s lmPidPath = some []) ?_ fun _ => ?_
    · refine fsTri_call fun fs fs' _ hf => ?_
      have : fsRead fs' lmPidPath = some [] := by
        split at hf
        · injection hf with hf; subst hf; simp [fsRead, put_self]
        · split at hf
          · injection hf with hf; subst hf; simp [fsRead, put_self]
          · cases hf
      exact ⟨⟨[], this, List.nil_prefix, fun _ => .inl rfl⟩, this⟩
    · intro fs hp
      refine ⟨fun s hs => ?_, fun _ _ => trivial⟩
      obtain ⟨t, ht, hr⟩ := (writeAll_content w.chunks (fun i => env.ok (8 + i)) (pidFileText w.pid) [] fs hp).1 s hs
      refine ⟨t, by simpa using hr, ht, fun hc => ?_⟩
      rw [hc] at hs
      have := (writeAll_nil_content (fun i => env.ok (8 + i)) (pidFileText w.pid) [] fs hp).1 s hs
      have this : fsRead s lmPidPath = some ([] ++ pidFileText w.pid) := this
      rw [hr] at this
      simp only [List.nil_append, Option.some.injEq] at this
      exact .inr this
  intro s hs
  have hst := (key fs trivial).1
  rcases hs with hs | hs
  · exact .inr (hst s hs)
  · rcases fsLast_makePidfile (env := env) (path := lmPidPath) (chunks := w.chunks) (pid := w.pid) fs with h | h
    · exact .inl (hs.trans h)
    · exact .inr (hst s (hs ▸ h))

theorem lmDirectory_written (o : LmOpts) (w : LmWorld) (s : Fs) (hs : s ∈ (lmDirectory o w).1 ∨ s = (lmDirectory o w).2) :
    s lmPidPath = w.fs lmPidPath ∨ (GetsSockets o w ∧ Written w (fsRead s lmPidPath)) := by
  by_cases hg : GetsSockets o w
  · have hk := createDir_keeps w.fsEnv (w.fsEnv.ok 0) w.fs
    have hdir : (s ∈ (createDirIfNotExists w.fsEnv (w.fsEnv.ok 0) lmDirPath w.fs).states ∨
        s = (createDirIfNotExists w.fsEnv (w.fsEnv.ok 0) lmDirPath w.fs).fs) → s lmPidPath = w.fs lmPidPath := by
      rintro (h | h)
      · exact hk.1 s h
      · rw [h]; exact hk.2
    unfold lmDirectory at hs
    dsimp only at hs
    split at hs
    · split at hs
      · split at hs
        · have : s ∈ (createDirIfNotExists w.fsEnv (w.fsEnv.ok 0) lmDirPath w.fs).states ∨
              (s ∈ (makePidfile w.fsEnv lmPidPath w.chunks w.pid (createDirIfNotExists w.fsEnv (w.fsEnv.ok 0) lmDirPath w.fs).fs).states ∨
                s = (makePidfile w.fsEnv lmPidPath w.chunks w.pid (createDirIfNotExists w.fsEnv (w.fsEnv.ok 0) lmDirPath w.fs).fs).fs) := by
            rcases hs with h | h
            · rcases List.mem_append.1 h with h | h
              · exact .inl h
              · exact .inr (.inl h)
            · exact .inr (.inr h)
          rcases this with h | h
          · exact .inl (hdir (.inl h))
          · rcases makePidfile_written w w.fsEnv _ s h with h | h
            · exact .inl (hdir (.inr h))
            · exact .inr ⟨hg, h⟩
        · exact .inl (hdir hs)
      · exact .inl (hdir hs)
    · exact .inl (hdir hs)
  · obtain ⟨h1, h2⟩ := lmDirectory_keeps hg
    rcases hs with h | h
    · exact .inl (h1 s h)
    · exact .inl (h ▸ h2)

theorem step_written (h : LmHost) (e : LmHostEvent) (ho : ∀ fs, e = .others fs → fs lmPidPath = h.fs lmPidPath) :
    (lmHostStep h e).2.fs lmPidPath = h.fs lmPidPath ∨
      ∃ o w, StartIn o w e ∧ GetsSockets o w ∧ Written w (fsRead (lmHostStep h e).2.fs lmPidPath) := by
  cases e with
  | lmStart o w =>
    rw [(lmStart_fs h o w).1]
    rcases lmDirectory_written o { w with fs := h.fs } _ (.inr rfl) with h1 | ⟨h1, h2⟩
    · exact .inl h1
    · exact .inr ⟨o, w, .inl rfl, h1, h2⟩
  | lmKilled o w i =>
    simp only [lmHostStep, List.getD_eq_getElem?_getD]
    cases hg : (lmDirectory o { w with fs := h.fs }).1[i]? with
    | none => exact .inl rfl
    | some s =>
      rcases lmDirectory_written o { w with fs := h.fs } s (.inl (List.mem_of_getElem? hg)) with h1 | ⟨h1, h2⟩
      · exact .inl h1
      · exact .inr ⟨o, w, .inr ⟨i, rfl⟩, h1, h2⟩
  | lmEnd pid => exact .inl rfl
  | fwdStart passwd group => exact .inl (keeps_step (e := .fwdStart passwd group) trivial)
  | connect cred => exact .inl (keeps_step (e := .connect cred) trivial)
  | others fs => exact .inl (ho fs rfl)

theorem lmHostRun_append (h : LmHost) (a b : List LmHostEvent) : lmHostRun h (a ++ b) = lmHostRun (lmHostRun h a) b := by
  induction a generalizing h with
  | nil => rfl
  | cons e a ih => exact ih _

/-- What is in the pid file has been written by the start that has left it. -/
theorem left_by (h : LmHost) (evs : List LmHostEvent) (hn : NobodyElseWrites h evs) :
    (lmHostRun h evs).fs lmPidPath = h.fs lmPidPath ∨
      ∃ w, LeftBy h evs w ∧ Written w (fsRead (lmHostRun h evs).fs lmPidPath) := by
  generalize hl : evs.length = l
  induction l generalizing evs with
  | zero =>
    cases evs with
    | nil => exact .inl rfl
    | cons _ _ => cases hl
  | succ l ih =>
    obtain ⟨es, e, rfl⟩ : ∃ es e, evs = es ++ [e] := by
      refine ⟨evs.dropLast, evs.getLast (by intro h; subst h; cases hl), (List.dropLast_concat_getLast _).symm⟩
    have hl' : es.length = l := by simp at hl; omega
    have hn' : NobodyElseWrites h es := fun a fs b he => hn a fs (b ++ [e]) (by rw [he]; simp)
    have hr : lmHostRun h (es ++ [e]) = (lmHostStep (lmHostRun h es) e).2 := by rw [lmHostRun_append]; rfl
    rcases step_written (lmHostRun h es) e (fun fs he => hn es fs [] (by rw [he])) with h1 | ⟨o, w, h1, h2, h3⟩
    · rw [← hr] at h1
      rcases ih es hn' hl' with h2 | ⟨w, ⟨a, e', b, o, rfl, h3, h4, h5⟩, h6⟩
      · exact .inl (h1.trans h2)
      · refine .inr ⟨w, ⟨a, e', b ++ [e], o, by simp, h3, h4, fun b1 b2 hb => ?_⟩, ?_⟩
        · rcases List.eq_nil_or_concat b2 with rfl | ⟨b2', x, rfl⟩
          · rw [show b1 = b ++ [e] by simpa using hb.symm]; simp
          · rw [List.concat_eq_append, ← List.append_assoc] at hb
            obtain ⟨hb', _⟩ := List.append_inj' hb rfl
            rw [h1]
            exact h5 b1 b2' hb'
        · unfold fsRead at h6 ⊢
          rw [h1]; exact h6
    · refine .inr ⟨w, ⟨es, e, [], o, rfl, h1, h2, fun b1 b2 hb => ?_⟩, by rw [hr]; exact h3⟩
      obtain ⟨rfl, rfl⟩ : b1 = [] ∧ b2 = [] := by
        have := congrArg List.length hb
        simp at this
        exact ⟨List.length_eq_zero_iff.1 (by omega), List.length_eq_zero_iff.1 (by omega)⟩
      rfl

/-! ## Reading a part of a number -/

theorem showNat_lt {n : Nat} (h : n < 10) : showNat n = [digitLower n] := by simp [showNat, showDigits, h]

theorem showDigits_fuel (digit : Nat → Char) (b : Nat) (hb : 2 ≤ b) (f g n : Nat) (hf : n < f) (hg : n < g) :
    showDigits digit b f n = showDigits digit b g n := by
  induction f generalizing g n with
  | zero => omega
  | succ f ih =>
    cases g with
    | zero => omega
    | succ g =>
      rw [showDigits, showDigits]
      split
      · rfl
      · have : n / b < n := Nat.div_lt_self (by omega) (by omega)
        rw [ih g (n / b) (by omega) (by omega)]

theorem showNat_ge {n : Nat} (h : ¬ n < 10) : showNat n = showNat (n / 10) ++ [digitLower (n % 10)] := by
  have h1 : showNat n = showDigits digitLower 10 n (n / 10) ++ [digitLower (n % 10)] := by
    unfold showNat
    rw [showDigits, if_neg h]
  rw [h1]
  unfold showNat
  rw [showDigits_fuel digitLower 10 (by omega) n (n / 10 + 1) (n / 10) (by omega) (by omega)]

theorem prefix_showNat (n : Nat) : ∀ t, t <+: showNat n → t ≠ [] → ∃ m, t = showNat m ∧ LeadingDigits m n := by
  induction n using Nat.strongRecOn with
  | ind n ih =>
    intro t ht hne
    by_cases hn : n < 10
    · refine ⟨n, ?_, 0, by simp, .inl rfl⟩
      rw [showNat_lt hn] at ht ⊢
      refine ht.eq_of_length_le ?_
      cases t with
      | nil => exact absurd rfl hne
      | cons c t => simp
    · have hg := showNat_ge hn
      rw [hg] at ht
      rcases List.prefix_concat_iff.1 ht with h | h
      · exact ⟨n, by rw [h, hg], 0, by simp, .inl rfl⟩
      · obtain ⟨m, h1, k, h2, h3⟩ := ih (n / 10) (by omega) t h hne
        refine ⟨m, h1, k + 1, ?_, .inr ?_⟩
        · rw [h2, Nat.pow_succ, Nat.mul_comm, Nat.div_div_eq_div_mul]
        · rcases h3 with rfl | h3
          · omega
          · rw [Nat.pow_succ]; omega

theorem prefix_pidFileText {t : Str} {pid : UInt32} (h : t <+: pidFileText pid) :
    t = [] ∨ t = pidFileText pid ∨ ∃ m, t = showNat m ∧ LeadingDigits m pid.toNat := by
  by_cases hne : t = []
  · exact .inl hne
  · right
    rcases List.prefix_concat_iff.1 h with h | h
    · exact .inl h
    · exact .inr (prefix_showNat _ t h hne)

theorem showNat_pid {m : Nat} {p : Int} (h : getLetmeindPid (some (showNat m)) = .ok p) : p = (m : Int) := by
  have htrim : trim (showNat m) = showNat m := by
    rw [← trimmed_iff]
    exact trimmed_self (fun c hc => by
      obtain ⟨d, hd, rfl⟩ := showNat_digits hc
      exact digitLower_not_ws d hd)
  unfold getLetmeindPid at h
  simp only [htrim] at h
  obtain ⟨hs, _, _⟩ := (parseI32_iff _ _).1 h
  rcases hs with ⟨n, hn, rfl⟩ | ⟨t, n, ht, _⟩
  · rw [numeral_unique (by decide) hn (.inl (showNat_numeral m))]
  · obtain ⟨d, hd, he⟩ := showNat_digits (n := m) (c := '-') (by rw [ht]; simp)
    exfalso
    revert he; revert hd; revert d; decide

/-- What letmeinfwd reads from it. -/
theorem written_pid {w : LmWorld} {c : Option Str} (h : Written w c) {p : Int} (hp : getLetmeindPid c = .ok p) :
    ∃ m, p = ((m : Nat) : Int) ∧ LeadingDigits m w.pid.toNat ∧ (w.chunks = [] → m = w.pid.toNat) := by
  obtain ⟨t, rfl, ht, hc⟩ := h
  have hempty : t ≠ [] := by
    rintro rfl
    rw [show getLetmeindPid (some []) = .err by decide] at hp
    cases hp
  have hwhole : t = pidFileText w.pid → p = (w.pid.toNat : Int) := by
    rintro rfl
    rw [pidFileText_parse] at hp
    split at hp
    · injection hp with hp; exact hp.symm
    · cases hp
  rcases prefix_pidFileText ht with h | h | ⟨m, h1, h2⟩
  · exact absurd h hempty
  · exact ⟨_, hwhole h, ⟨0, by simp, .inl rfl⟩, fun _ => rfl⟩
  · have hm : p = (m : Int) := by rw [h1] at hp; exact showNat_pid hp
    refine ⟨m, hm, h2, fun hcc => ?_⟩
    rcases hc hcc with h | h
    · exact absurd h hempty
    · have := hwhole h
      rw [hm] at this
      exact Int.ofNat.inj this

theorem connect_served {h : LmHost} {cred : Option Cred} (hs : (lmHostStep h (.connect cred)).1 = true) :
    ∃ ids p, h.fwd = some ids ∧ cred = some ⟨some p, ids.1, ids.2⟩ ∧ getLetmeindPid (fsRead h.fs lmPidPath) = .ok p := by
  simp only [lmHostStep] at hs
  cases hf : h.fwd with
  | none => rw [hf] at hs; cases hs
  | some ids =>
    rw [hf] at hs
    dsimp only at hs
    cases ha : fwAccept false ids cred (fsRead h.fs lmPidPath) with
    | ok u =>
      obtain ⟨c, p, h1, h2, h3, h4⟩ := (fwAccept_iff false ids cred (fsRead h.fs lmPidPath)).1 ha
      obtain ⟨cp, cu, cg⟩ := c
      simp only [Bool.false_eq_true, false_or] at h2 h4
      obtain ⟨rfl, rfl⟩ := h4
      subst h2
      exact ⟨ids, p, rfl, h1, h3⟩
    | err => rw [ha] at hs; cases hs
    | panic => rw [ha] at hs; cases hs

/-! ## C103 -/

/-- **C103** (partial: the start may be over). From a host without a pid file, whatever happens except that somebody else writes to letmeind's pid file: a process served
by letmeinfwd has the account letmeinfwd has read, and its pid consists of leading digits of the pid of a start of letmeind that got its sockets and that has last changed
the pid file. If that start wrote its pid with one system call, it is the pid of that start. -/
theorem C103_last_start_partial (h : LmHost) (h0 : fsRead h.fs lmPidPath = none) (evs : List LmHostEvent) (hn : NobodyElseWrites h evs)
    (cred : Option Cred) (hs : (lmHostStep (lmHostRun h evs) (.connect cred)).1 = true) :
    ∃ w m ids, LeftBy h evs w ∧ LeadingDigits m w.pid.toNat ∧ (w.chunks = [] → m = w.pid.toNat) ∧ (lmHostRun h evs).fwd = some ids ∧
      cred = some ⟨some ((m : Nat) : Int), ids.1, ids.2⟩ := by
  obtain ⟨ids, p, h1, h2, h3⟩ := connect_served hs
  rcases left_by h evs hn with h4 | ⟨w, h4, h5⟩
  · have : fsRead (lmHostRun h evs).fs lmPidPath = none := by
      unfold fsRead at h0 ⊢
      rw [h4]; exact h0
    rw [this] at h3
    cases h3
  · obtain ⟨m, rfl, h6, h7⟩ := written_pid h5 h3
    exact ⟨w, m, ids, h4, h6, h7, h1, h2⟩

/-- **C103** (exactly). After letmeind has been started, and as long as no other start gets its sockets: everybody who is served is a running letmeind if and only if the
letmeind started has not ended. -/
theorem C103_running_iff (h : LmHost) (o : LmOpts) (w : LmWorld) {p : LmProc} (hs : lmMain o { w with fs := h.fs } = .ok p)
    (hp : w.pid.toNat ≤ 2147483647) (evs : List LmHostEvent) (hk : KeepPidFile (lmHostStep h (.lmStart o w)).2 evs)
    {ids : UInt32 × UInt32} (hf : (lmHostRun h (.lmStart o w :: evs)).fwd = some ids) :
    (∀ cred, (lmHostStep (lmHostRun h (.lmStart o w :: evs)) (.connect cred)).1 = true →
      ∃ pid ∈ (lmHostRun h (.lmStart o w :: evs)).running, ∃ uid gid, cred = some ⟨some (pid.toNat : Int), uid, gid⟩) ↔
    w.pid ∈ (lmHostRun h (.lmStart o w :: evs)).running := by
  have key := fun cred => (C102_served_partial h o w hs hp evs hk hf cred).1
  constructor
  · intro hall
    obtain ⟨pid, h1, uid, gid, h2⟩ := hall _ ((key _).2 rfl)
    injection h2 with h2
    injection h2 with h2
    injection h2 with h2
    rw [show w.pid = pid from UInt32.toNat_inj.1 (Int.ofNat.inj h2)]
    exact h1
  · intro hr cred hc
    exact ⟨w.pid, hr, _, _, (key cred).1 hc⟩

/-! ### Examples -/

/-- letmeind is started, runs and is ended. -/
def overEvs : List LmHostEvent := takeoverEvs ++ [.lmEnd 1234]
/-- letmeind is killed when it has written a part of its pid. -/
def halfWritten : LmWorld := { e2eLmWorld with chunks := [1] }
def halfEvs : List LmHostEvent := [.fwdStart (some lifePasswd) (some lifeGroup), .lmKilled e2eLmOpts halfWritten 2]

theorem over_served : (lmHostRun emptyHost overEvs).running = [] ∧ (lmHostStep (lmHostRun emptyHost overEvs) (lmCred 1234)).1 = true := by decide +kernel
theorem half_served : (lmHostRun emptyHost halfEvs).running = [] ∧ (lmHostStep (lmHostRun emptyHost halfEvs) (lmCred 12)).1 = true := by decide +kernel

/-- **C103** (full statement is false). From an empty run directory: no letmeind runs, but a process is served. In the first history a letmeind has run before and another
process of its account has got its pid; in the second one a letmeind was killed while it wrote its pid, and the process has its first digits as pid. -/
theorem C103_negation : (∃ evs cred, NobodyElseWrites emptyHost evs ∧ (lmHostRun emptyHost evs).running = [] ∧
      (lmHostStep (lmHostRun emptyHost evs) (.connect cred)).1 = true ∧ ∃ o w, .lmStart o w ∈ evs ∧ cred = some ⟨some (w.pid.toNat : Int), 997, 996⟩) ∧
    (∃ evs cred, NobodyElseWrites emptyHost evs ∧ (lmHostRun emptyHost evs).running = [] ∧
      (lmHostStep (lmHostRun emptyHost evs) (.connect cred)).1 = true ∧ ∀ o w, .lmStart o w ∉ evs) := by
  have hno : ∀ evs : List LmHostEvent, (∀ fs, .others fs ∉ evs) → NobodyElseWrites emptyHost evs := by
    intro evs h a fs b he
    exact absurd (he ▸ List.mem_append_right a (List.mem_cons_self)) (h fs)
  refine ⟨⟨overEvs, some ⟨some 1234, 997, 996⟩, hno _ (by simp [overEvs, takeoverEvs]), over_served.1, over_served.2, e2eLmOpts, e2eLmWorld,
    by simp [overEvs, takeoverEvs], rfl⟩, ⟨halfEvs, some ⟨some 12, 997, 996⟩, hno _ (by simp [halfEvs]), half_served.1, half_served.2, by simp [halfEvs]⟩⟩

/-- The hypotheses of `C103_last_start_partial`, with the start that is over; and both sides of `C103_running_iff`. -/
example : fsRead emptyHost.fs lmPidPath = none ∧ LeftBy emptyHost overEvs e2eLmWorld ∧ LeftBy emptyHost halfEvs halfWritten ∧ LeadingDigits 12 1234 ∧
    1234 ∈ (lmHostRun emptyHost takeoverEvs).running ∧ 1234 ∉ (lmHostRun emptyHost overEvs).running := by
  have hg : GetsSockets e2eLmOpts e2eLmWorld := by
    have h : (match lmMain e2eLmOpts e2eLmWorld with | .ok _ => true | _ => false) = true := by decide +kernel
    split at h
    · rename_i p hp
      exact (lmMain_directory hp).1
    · cases h
  have gen : ∀ evs pid, (lmHostRun emptyHost evs).fs lmPidPath = (lmHostRun emptyHost (evs ++ [.lmEnd pid])).fs lmPidPath := by
    intro evs pid
    rw [lmHostRun_append]
    rfl
  refine ⟨rfl, ⟨[.fwdStart (some lifePasswd) (some lifeGroup)], .lmStart e2eLmOpts e2eLmWorld, [.lmEnd 1234], e2eLmOpts, rfl, .inl rfl, hg, ?_⟩,
    ⟨[.fwdStart (some lifePasswd) (some lifeGroup)], .lmKilled e2eLmOpts halfWritten 2, [], e2eLmOpts, rfl, .inr ⟨2, rfl⟩, hg, ?_⟩, ⟨2, rfl, .inr (by decide)⟩,
    takeover_before.1, ?_⟩
  · intro b1 b2 hb
    rcases b1 with _ | ⟨x, b1⟩
    · have e1 : [.fwdStart (some lifePasswd) (some lifeGroup)] ++ [.lmStart e2eLmOpts e2eLmWorld] = takeoverEvs := rfl
      have e2 : overEvs = takeoverEvs ++ [.lmEnd 1234] := rfl
      rw [e1, e2, ← gen takeoverEvs 1234]
    · simp only [List.cons_append, List.cons.injEq] at hb
      obtain ⟨rfl, hb⟩ := hb
      obtain ⟨rfl, _⟩ : b1 = [] ∧ b2 = [] := by simpa using hb.symm
      rfl
  · intro b1 b2 hb
    obtain ⟨rfl, _⟩ : b1 = [] ∧ b2 = [] := by simpa using hb.symm
    rfl
  · rw [over_served.1]; simp

end Letmein.Props
