import Verif.Props.Startup

/-!
# Properties C46, C56, C57 and C76, exactly

These properties are false of the code as stated. Here the conditions under which they hold are shown to be necessary, too.
-/

namespace Letmein.Props

open Letmein Prog Spec

/-! ## C46 -/

/-- **C46, exactly**: after a successful start TCP is served if and only if it is configured and either systemd is not used, or
systemd passes a TCP socket, or it passes none of a configured protocol; likewise UDP. -/
theorem C46_served_iff {port : ControlPort} {noSystemd : Bool} {ss : List SystemdSocket} {usable : Nat → Bool}
    {notifyOk b1 b2 : Bool} {l : Listening} (h : serverNew port noSystemd (.ok ss) usable notifyOk b1 b2 = .ok l) :
    (l.tcp.isSome = true ↔ port.tcp = true ∧ (noSystemd = true ∨ PassesTcp ss ∨ ¬ (port.udp = true ∧ PassesUdp ss))) ∧
    (l.udp.isSome = true ↔ port.udp = true ∧ (noSystemd = true ∨ PassesUdp ss ∨ ¬ (port.tcp = true ∧ PassesTcp ss))) := by
  have key : ∀ {l0 : Listening}, serverSockets port usable { tcp := none, udp := none } ss = .ok l0 →
      (l0.tcp.isSome = true ↔ port.tcp = true ∧ PassesTcp ss) ∧ (l0.udp.isSome = true ↔ port.udp = true ∧ PassesUdp ss) := by
    intro l0 h0
    obtain ⟨_, _, h5, h6, h7, h8⟩ := serverSockets_spec h0
    refine ⟨⟨fun hs => ?_, fun hs => h7 hs.2 hs.1⟩, ⟨fun hs => ?_, fun hs => h8 hs.2 hs.1⟩⟩
    · obtain ⟨x, hx⟩ := Option.isSome_iff_exists.1 hs
      rcases h5 x hx with h | ⟨hp, fd, _, hm⟩
      · cases h
      · exact ⟨hp, fd, hm⟩
    · obtain ⟨x, hx⟩ := Option.isSome_iff_exists.1 hs
      rcases h6 x hx with h | ⟨hp, fd, _, hm⟩
      · cases h
      · exact ⟨hp, fd, hm⟩
  rcases serverNew_cases h with ⟨ss', h1, h2, h3, h4⟩ | ⟨hw, rfl⟩
  · injection h2 with h2
    subst h2
    obtain ⟨kt, ku⟩ := key h4
    constructor
    · rw [kt]
      refine ⟨fun h => ⟨h.1, .inr (.inl h.2)⟩, fun ⟨h5, h6⟩ => ⟨h5, ?_⟩⟩
      rcases h6 with h6 | h6 | h6
      · rw [h1] at h6; cases h6
      · exact h6
      · rcases h3 with h3 | h3
        · exact (kt.1 h3).2
        · exact absurd (ku.1 h3) h6
    · rw [ku]
      refine ⟨fun h => ⟨h.1, .inr (.inl h.2)⟩, fun ⟨h5, h6⟩ => ⟨h5, ?_⟩⟩
      rcases h6 with h6 | h6 | h6
      · rw [h1] at h6; cases h6
      · exact h6
      · rcases h3 with h3 | h3
        · exact absurd (kt.1 h3) h6
        · exact (ku.1 h3).2
  · have hw' : noSystemd = true ∨ (¬ (port.tcp = true ∧ PassesTcp ss) ∧ ¬ (port.udp = true ∧ PassesUdp ss)) := by
      rcases hw with hw | ⟨ss', h2, h4⟩
      · exact .inl hw
      · injection h2 with h2
        subst h2
        obtain ⟨kt, ku⟩ := key h4
        exact .inr ⟨fun h => (by have := kt.2 h; cases this), fun h => (by have := ku.2 h; cases this)⟩
    constructor
    · have e : (if port.tcp = true then some (Listener.bound port.port) else none).isSome = port.tcp := by cases port.tcp <;> rfl
      simp only
      rw [e]
      refine ⟨fun h => ⟨h, ?_⟩, fun h => h.1⟩
      rcases hw' with h | h
      · exact .inl h
      · exact .inr (.inr h.2)
    · have e : (if port.udp = true then some (Listener.bound port.port) else none).isSome = port.udp := by cases port.udp <;> rfl
      simp only
      rw [e]
      refine ⟨fun h => ⟨h, ?_⟩, fun h => h.1⟩
      rcases hw' with h | h
      · exact .inl h
      · exact .inr (.inr h.1)

/-- **C46, exactly**: the condition of `C46_exactly_configured_partial` is necessary. -/
theorem C46_exactly_configured_iff {port : ControlPort} {noSystemd : Bool} {ss : List SystemdSocket} {usable : Nat → Bool}
    {notifyOk b1 b2 : Bool} {l : Listening} (h : serverNew port noSystemd (.ok ss) usable notifyOk b1 b2 = .ok l) :
    ((l.tcp.isSome = true ↔ port.tcp = true) ∧ (l.udp.isSome = true ↔ port.udp = true)) ↔
      noSystemd = true ∨ ((port.tcp = true → PassesTcp ss) ∧ (port.udp = true → PassesUdp ss)) ∨
      ((port.tcp = true → ¬ PassesTcp ss) ∧ (port.udp = true → ¬ PassesUdp ss)) := by
  refine ⟨fun hx => ?_, C46_exactly_configured_partial h⟩
  obtain ⟨h1, h2⟩ := C46_served_iff h
  rw [hx.1] at h1
  rw [hx.2] at h2
  by_cases hn : noSystemd = true
  · exact .inl hn
  · right
    simp only [hn, false_or] at h1 h2
    by_cases ht : port.tcp = true <;> by_cases hu : port.udp = true <;> by_cases pt : PassesTcp ss <;> by_cases pu : PassesUdp ss <;>
      simp_all

/-- Two successful starts with both protocols configured: systemd passes both sockets, or only one. -/
example : serverNew { port := 5800, tcp := true, udp := true } false (.ok [.Udp 4, .Tcp 3]) (fun _ => true) true true true =
      .ok { tcp := some (.systemd 3), udp := some (.systemd 4) } ∧
    serverNew { port := 5800, tcp := true, udp := true } false (.ok [.Udp 4]) (fun _ => true) true true true =
      .ok { tcp := none, udp := some (.systemd 4) } := by decide

/-! ## C56 -/

theorem lm_stops (fdMax : Nat) (ops : List LmOp) (s : LmState) (h : s.phase ≠ .running ∨ s.accept ≠ .accepting) :
    (lmRun fdMax s ops).phase ≠ .running ∨ (lmRun fdMax s ops).accept ≠ .accepting := by
  induction ops generalizing s with
  | nil => exact h
  | cons op ops ih =>
    rw [lmRun]
    refine ih _ ?_
    rcases h with h | h
    · left
      unfold lmStep
      split
      · exact h
      · exact h
      · rename_i hr; exact absurd hr h
    · unfold lmStep
      split
      · exact .inr h
      · exact .inr h
      · cases op with
        | connectTcp => simp only; exact .inr h
        | connectUdp => simp only; exact .inr h
        | acceptError => simp only; exact .inr h
        | sessionPanic => left; simp
        | exitRecv => simp only; split <;> exact .inr h
        | _ => exact .inr h

theorem lmRun_split (fdMax : Nat) (s : LmState) (a b : List LmOp) : lmRun fdMax s (a ++ b) = lmRun fdMax (lmRun fdMax s a) b := by
  induction a generalizing s with
  | nil => rfl
  | cons op a ih => exact ih _

/-- **C56, exactly**: whatever peers do, letmeind goes on accepting if and only if at no TCP connection the file descriptors are
used up. -/
theorem C56_keeps_accepting_iff {limit : Nat} (h1 : 0 < limit) {s0 : LmState} (h0 : lmStart limit = .ok s0) {fdMax : Nat} (ops : List LmOp)
    (hop : ∀ op ∈ ops, PeerOp op) :
    ((lmRun fdMax s0 ops).phase = .running ∧ (lmRun fdMax s0 ops).accept = .accepting) ↔
      ∀ a b, ops = a ++ .connectTcp :: b → (lmRun fdMax s0 a).fds < fdMax := by
  refine ⟨?_, C56_keeps_accepting_partial h1 h0 ops hop⟩
  rintro ⟨hp, ha⟩ a b rfl
  refine Classical.byContradiction fun hlt => ?_
  rw [lmRun_split] at hp ha
  generalize lmRun fdMax s0 a = s at *
  have hs : s.phase = .running ∧ s.accept = .accepting := by
    refine Classical.byContradiction fun hn => ?_
    have : s.phase ≠ .running ∨ s.accept ≠ .accepting := by
      by_cases hx : s.phase = .running
      · exact .inr fun hy => hn ⟨hx, hy⟩
      · exact .inl hx
    rcases lm_stops fdMax (.connectTcp :: b) s this with h | h
    · exact h hp
    · exact h ha
  have e : lmStep fdMax s .connectTcp = s.acceptFailed := by
    unfold lmStep
    rw [hs.1]
    simp only [hs.2]
    rw [if_neg hlt]
  rw [lmRun, e] at hp ha
  rcases lm_stops fdMax b s.acceptFailed (.inr (by simp [LmState.acceptFailed])) with h | h
  · exact h hp
  · exact h ha

/-- Both directions occur. -/
example : (∀ op ∈ [LmOp.connectTcp, .connectUdp, .sessionDone 0, .connectTcp, .connectTcp], PeerOp op) ∧
    (lmRun 2 ⟨.running, .accepting, 8, [], 0, false⟩ [.connectTcp, .connectUdp, .sessionDone 0, .connectTcp, .connectTcp]).accept = .accepting ∧
    (lmRun 1 ⟨.running, .accepting, 8, [], 0, false⟩ [.connectTcp, .connectUdp, .sessionDone 0, .connectTcp, .connectTcp]).accept = .ended := by
  refine ⟨by simp [PeerOp], by decide, by decide⟩

/-! ## C57 -/

/-- **C57, exactly**: a running letmeind that gets SIGTERM exits with success if no session is in progress, and aborts otherwise. SIGINT
likewise, with failure. -/
theorem C57_exit_iff {limit fdMax : Nat} (h1 : 0 < limit) {s : LmState} (h : LmReach limit fdMax s) (hr : s.phase = .running)
    (ops : List LmOp) :
    (lmRun fdMax s (.sigterm :: ops)).phase = (if s.sessions = [] then .exited (.ok ()) else .aborted) ∧
    (lmRun fdMax s (.sigint :: ops)).phase = (if s.sessions = [] then .exited .err else .aborted) := by
  by_cases hs : s.sessions = []
  · rw [if_pos hs, if_pos hs]
    exact C57_orderly_exit_partial h1 h hr hs ops
  · rw [if_neg hs, if_neg hs]
    have hu : s.unclosed.isEmpty = false := by
      unfold LmState.unclosed
      cases hx : s.sessions with
      | nil => exact absurd hx hs
      | cons c l => rfl
    have stay : ∀ t : LmState, t.phase = .aborted → (lmRun fdMax t ops).phase = .aborted := by
      intro t ht
      induction ops generalizing t with
      | nil => exact ht
      | cons op ops ih =>
        rw [lmRun]
        refine ih _ ?_
        unfold lmStep
        rw [ht]
        exact ht
    constructor
    · rw [lmRun]
      refine stay _ ?_
      unfold lmStep
      rw [hr]
      simp [LmState.leave, hu]
    · rw [lmRun]
      refine stay _ ?_
      unfold lmStep
      rw [hr]
      simp [LmState.leave, hu]

/-- One session has ended, another is in progress. -/
example : LmReach 8 100 (lmRun 100 ⟨.running, .accepting, 8, [], 0, false⟩ [.connectTcp, .connectUdp, .sessionDone 0]) ∧
    (lmRun 100 ⟨.running, .accepting, 8, [], 0, false⟩ [.connectTcp, .connectUdp, .sessionDone 0]).sessions = [⟨1, false⟩] ∧
    (lmRun 100 ⟨.running, .accepting, 8, [], 0, false⟩ [.connectTcp, .connectUdp, .sessionDone 0, .sigterm]).phase = .aborted :=
  by
  refine ⟨?_, by decide, by decide⟩
  have h : LmReach 8 100 ⟨.running, .accepting, 8, [], 0, false⟩ := .start (by decide)
  exact .step (.sessionDone 0) (.step .connectUdp (.step .connectTcp h))

/-! ## C76 -/

theorem R.bind_eq_panic {α β : Type} {x : R α} {f : α → R β} (hx : x ≠ .panic) : (x >>= f) = .panic ↔ ∃ a, x = .ok a ∧ f a = .panic := by
  cases x with
  | ok a => exact ⟨fun h => ⟨a, rfl, h⟩, fun ⟨b, h1, h2⟩ => by cases h1; exact h2⟩
  | err => exact ⟨fun h => (by cases h), fun ⟨b, h1, _⟩ => (by cases h1)⟩
  | panic => exact absurd rfl hx

/-- **C76, exactly** (letmeind): start-up panics if and only if the limit is too large for the semaphore and nothing else is wrong: with
a limit of one connection the daemon would run. -/
theorem C76_letmeind_iff (o : LmOpts) (w : LmWorld) (hs : w.sockets ≠ .panic) :
    lmMain o w = .panic ↔ 2305843009213693951 < o.limit ∧ ∃ p, lmMain { o with limit := 1 } w = .ok p := by
  by_cases hl : o.limit ≤ 2305843009213693951
  · exact ⟨fun h => absurd h (C76_letmeind_partial o w hs hl), fun h => by omega⟩
  · have hl' : 2305843009213693951 < o.limit := by omega
    unfold lmMain
    have e1 : lmStart o.limit = .panic := by unfold lmStart; rw [if_pos (by unfold MAX_PERMITS; omega)]
    have e2 : ∃ st, lmStart 1 = .ok st := ⟨_, rfl⟩
    obtain ⟨st, e2⟩ := e2
    rw [R.bind_eq_panic (fsCalm_createDir _ _ _ _)]
    constructor
    · rintro ⟨_, h1, h⟩
      rw [R.bind_eq_panic (C33_failure_changes_nothing ..).1] at h
      obtain ⟨_, h2, h⟩ := h
      rw [R.bind_eq_panic (serverNew_not_panic _ _ hs _ _ _ _)] at h
      obtain ⟨_, h3, h⟩ := h
      rw [R.bind_eq_panic (fsCalm_makePidfile _ _ _ _ _)] at h
      obtain ⟨_, h4, h⟩ := h
      rw [R.bind_eq_panic (installFor_not_panic (.inr (.inl rfl)) _ _ _ _)] at h
      obtain ⟨_, h5, _⟩ := h
      refine ⟨hl', _, R.bind_eq_ok.2 ⟨_, h1, R.bind_eq_ok.2 ⟨_, h2, R.bind_eq_ok.2 ⟨_, h3, R.bind_eq_ok.2 ⟨_, h4, R.bind_eq_ok.2 ⟨_, h5,
        R.bind_eq_ok.2 ⟨st, e2, rfl⟩⟩⟩⟩⟩⟩⟩
    · rintro ⟨_, p, h⟩
      obtain ⟨_, h1, h⟩ := R.bind_eq_ok.1 h
      obtain ⟨_, h2, h⟩ := R.bind_eq_ok.1 h
      obtain ⟨_, h3, h⟩ := R.bind_eq_ok.1 h
      obtain ⟨_, h4, h⟩ := R.bind_eq_ok.1 h
      obtain ⟨_, h5, h⟩ := R.bind_eq_ok.1 h
      refine ⟨_, h1, ?_⟩
      refine (R.bind_eq_panic (C33_failure_changes_nothing ..).1).2 ⟨_, h2, ?_⟩
      refine (R.bind_eq_panic (serverNew_not_panic _ _ hs _ _ _ _)).2 ⟨_, h3, ?_⟩
      refine (R.bind_eq_panic (fsCalm_makePidfile _ _ _ _ _)).2 ⟨_, h4, ?_⟩
      refine (R.bind_eq_panic (installFor_not_panic (.inr (.inl rfl)) _ _ _ _)).2 ⟨_, h5, ?_⟩
      rw [e1]
      rfl

/-- **C76, exactly** (letmeinfwd). -/
theorem C76_letmeinfwd_iff (o : FwdOpts) (w : FwdWorld) (hs : w.sockets ≠ .panic) :
    (fwdMain o w).2 = .panic ↔ 2305843009213693951 < o.limit ∧ ∃ p, (fwdMain { o with limit := 1 } w).2 = .ok p := by
  by_cases hl : o.limit ≤ 2305843009213693951
  · exact ⟨fun h => absurd h (C76_letmeinfwd_partial o w hs hl), fun h => by omega⟩
  · have hl' : 2305843009213693951 < o.limit := by omega
    have hone := C76_letmeinfwd_partial { o with limit := 1 } w hs (by simp)
    have e1 : o.limit > MAX_PERMITS := by unfold MAX_PERMITS; omega
    have e2 : ¬ 1 > MAX_PERMITS := by decide
    revert hone
    unfold fwdMain
    simp only
    cases readEtcPasswd o.testMode w.passwd w.group with
    | panic => simp
    | err => simp
    | ok ids =>
      simp only
      cases fwdMakeRunSubdir w.fsEnv o.testMode ids.2 w.fs with
      | mk res states fs =>
        cases res with
        | panic => simp
        | err => simp
        | ok _ =>
          simp only
          cases (Config.new .Server).load w.f64 w.order o.config w.file with
          | mk r conf =>
            cases r with
            | panic => simp
            | err => simp
            | ok _ =>
              simp only
              cases NftFirewall.new conf w.kernel w.nftOk with
              | mk r k =>
                cases r with
                | panic => simp
                | err => simp
                | ok fw =>
                  simp only
                  have er : fwdReady { o with limit := 1 } w conf ids.2 fs = fwdReady o w conf ids.2 fs := rfl
                  rw [er]
                  cases fwdReady o w conf ids.2 fs with
                  | panic => intro h; exact absurd rfl h
                  | err => intro _; exact ⟨fun h => (by cases h), fun ⟨_, _, h⟩ => (by cases h)⟩
                  | ok r =>
                    intro _
                    show (if o.limit > MAX_PERMITS then R.panic else _) = _ ↔ _ ∧ ∃ p, (if 1 > MAX_PERMITS then R.panic else _) = _
                    rw [if_pos e1, if_neg e2]
                    exact ⟨fun _ => ⟨hl', _, rfl⟩, fun _ => rfl⟩

/-- A world in which only the limit is wrong, for both daemons. -/
example : lmWorld.sockets ≠ .panic ∧ fwdWorld.sockets ≠ .panic ∧
    (match lmMain { config := "/opt/letmein/etc/letmeind.conf".toList, limit := 1, noSystemd := false, seccomp := none } lmWorld with
      | .ok _ => true
      | _ => false) = true ∧
    (match (fwdMain { config := "/opt/letmein/etc/letmeind.conf".toList, limit := 1, noSystemd := true, seccomp := none, testMode := false } fwdWorld).2 with
      | .ok _ => true
      | _ => false) = true :=
  ⟨by simp [lmWorld], by simp [fwdWorld], by decide +kernel, by decide +kernel⟩

end Letmein.Props
