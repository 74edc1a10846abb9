import Verif.Model.Process
import Verif.Props.Starts
import Verif.Props.Exact2

/-!
# Properties: how letmeinfwd ends

C96: the exit status. C97: signals during start-up.
-/

namespace Letmein.Spec

/-- SIGTERM, and nft works when the rules are removed. -/
def OrderlyStop (e : ProcEvent) : Prop := e.ev = .signal true ∧ e.sigint = false

/-- The main task has a message to read: a task has failed. -/
def TaskFailed (s : FwdLife) : Prop := s.exitMsg = true ∨ s.core.phase = .stopping

/-- The event ends the main loop; `ok`: nft works when the rules are removed. -/
def Ends (s : FwdLife) (e : ProcEvent) (ok : Bool) : Prop := e.ev = .signal ok ∨ (e.ev = .exitRecv ok ∧ TaskFailed s)

end Letmein.Spec

namespace Letmein.Props

open Letmein Prog Spec

theorem opOf_terminate {s : FwdLife} {e : ProcEvent} {ok : Bool} : s.opOf e.ev = some (.terminate ok) ↔ Ends s e ok := by
  obtain ⟨ev, si⟩ := e
  unfold Ends TaskFailed FwdLife.opOf
  cases ev <;> simp only [reduceCtorEq, Option.some.injEq, FwdOp.terminate.injEq, FwdEvent.signal.injEq, FwdEvent.exitRecv.injEq, false_and, or_false, false_or,
    iff_false]
  · split <;> simp
  · split <;> simp_all

theorem doShutdown_result {conf : Config} {n : NftNames} (hn : ChainOf conf n) {fw : NftFirewall} (hd : fw.shutdown = false) (k : Kernel) (ok : Bool) :
    (fw.doShutdown conf k ok).1 = (if ok then .ok () else .err) ∧
      ownRules n (fw.doShutdown conf k ok).2.2 = if ok then [] else ownRules n k := by
  unfold NftFirewall.doShutdown
  rw [if_neg (by simp [hd])]
  simp only
  unfold fullRebuild
  rw [rebuildCmds_shutdown hn rfl]
  cases ok with
  | false => simp [applyBatch]
  | true =>
    simp only [applyBatch, applyCmds, applyCmd, if_true, true_and]
    simp only [ownRules, List.filter_filter, List.filter_eq_nil_iff, own_iff]
    intro r _
    simp

/-- The process has ended exactly if the daemon is not alive any more; as long as it runs, the firewall has not been shut down. -/
def ProcInv (s : FwdProcess) : Prop := NotCrashed s.life.core ∧ (s.ended = none ↔ s.life.core.phase.alive = true)

theorem alive_step {conf : Config} {s : FwdState} {op : FwdOp} (ha : s.phase.alive = true) (hop : ∀ ok, op ≠ .terminate ok)
    (hc : NotCrashed (fwdStep conf s op).2) : (fwdStep conf s op).2.phase.alive = true := by
  obtain ⟨phase, fw, k⟩ := s
  have hph : phase = .running ∨ phase = .stopping := by
    cases phase <;> simp_all [FwdPhase.alive]
  cases op with
  | foreign k' => exact ha
  | reorder l => exact ha
  | terminate ok => exact absurd rfl (hop ok)
  | request rx now ok =>
    rcases hph with rfl | rfl <;>
    · simp only [fwdStep] at hc ⊢
      split at hc
      · exact absurd hc (by simp [NotCrashed])
      · rfl
  | maintain now env =>
    rcases hph with rfl | rfl
    · simp only [fwdStep] at hc ⊢
      split at hc
      · rfl
      · rfl
      · exact absurd hc (by simp [NotCrashed])
    · rfl

theorem dead_step {conf : Config} {s : FwdState} {op : FwdOp} (ha : s.phase.alive = false) : (fwdStep conf s op).2.phase.alive = false := by
  obtain ⟨phase, fw, k⟩ := s
  cases phase <;> simp [FwdPhase.alive] at ha <;> cases op <;> rfl

theorem terminate_dead {conf : Config} {s : FwdState} (ok : Bool) : (fwdStep conf s (.terminate ok)).2.phase.alive = false := by
  obtain ⟨phase, fw, k⟩ := s
  cases phase <;> simp only [fwdStep] <;> (try rfl) <;> split <;> rfl

theorem procStep_life (setup : FwdSetup) (s : FwdProcess) (e : ProcEvent) : (procStep setup s e).life = lifeStep setup s.life e.ev := by
  unfold procStep
  simp only
  split
  · rfl
  · split <;> rfl

theorem procRun_life (setup : FwdSetup) (s : FwdProcess) (es : List ProcEvent) :
    (procRun setup s es).life = lifeRun setup s.life (es.map (·.ev)) := by
  induction es generalizing s with
  | nil => rfl
  | cons e rest ih => rw [procRun, ih, procStep_life]; rfl

theorem procStep_inv {setup : FwdSetup} {s : FwdProcess} (h : ProcInv s) (e : ProcEvent) : ProcInv (procStep setup s e) := by
  obtain ⟨hc, hi⟩ := h
  have hcore : NotCrashed (lifeStep setup s.life e.ev).core := by
    rw [lifeStep_core]; exact notCrashed_run _ _ _ hc
  refine ⟨by rw [procStep_life]; exact hcore, ?_⟩
  rw [procStep_life]
  have hnc : (lifeStep setup s.life e.ev).core.phase ≠ .crashed := by
    intro hp
    unfold NotCrashed at hcore
    rw [hp] at hcore
    exact hcore
  unfold procStep
  simp only
  cases hend : s.ended with
  | some x =>
    simp only [reduceCtorEq, false_iff, Bool.not_eq_true]
    rw [lifeStep_core]
    have ha : s.life.core.phase.alive = false := by
      cases h : s.life.core.phase.alive with
      | false => rfl
      | true => rw [hi.2 h] at hend; cases hend
    cases s.life.opOf e.ev with
    | none => exact ha
    | some op => exact dead_step ha
  | none =>
    have ha := hi.1 hend
    rw [lifeStep_core] at hcore hnc ⊢
    cases hop : s.life.opOf e.ev with
    | none =>
      rw [hop] at hnc
      simp only
      rw [if_neg hnc]
      exact ⟨fun _ => ha, fun _ => rfl⟩
    | some op =>
      rw [hop] at hcore hnc
      cases op with
      | terminate ok => simp only [reduceCtorEq, false_iff, Bool.not_eq_true]; exact terminate_dead ok
      | _ =>
        simp only
        rw [if_neg hnc]
        simp only [true_iff]
        exact alive_step ha (by simp) hcore

theorem procRun_inv {setup : FwdSetup} {s : FwdProcess} (h : ProcInv s) (es : List ProcEvent) : ProcInv (procRun setup s es) := by
  induction es generalizing s with
  | nil => exact h
  | cons e rest ih => exact ih (procStep_inv h e)

theorem procRun_append (setup : FwdSetup) (s : FwdProcess) (a b : List ProcEvent) : procRun setup s (a ++ b) = procRun setup (procRun setup s a) b := by
  induction a generalizing s with
  | nil => rfl
  | cons e a ih => exact ih _

theorem procRun_snoc (setup : FwdSetup) (s : FwdProcess) (a : List ProcEvent) (e : ProcEvent) :
    procRun setup s (a ++ [e]) = procStep setup (procRun setup s a) e := procRun_append setup s a [e]

theorem procRun_ended {setup : FwdSetup} {s : FwdProcess} {x : ProcEnd} (h : s.ended = some x) (es : List ProcEvent) : (procRun setup s es).ended = some x := by
  induction es generalizing s with
  | nil => exact h
  | cons e rest ih => exact ih (by unfold procStep; simp only [h])

/-- The event with which the process ended. -/
theorem procRun_first {setup : FwdSetup} {s : FwdProcess} (hi : ProcInv s) (h0 : s.ended = none) {es : List ProcEvent} {x : ProcEnd}
    (h : (procRun setup s es).ended = some x) :
    ∃ a e b, es = a ++ e :: b ∧ (procRun setup s a).ended = none ∧ (procStep setup (procRun setup s a) e).ended = some x := by
  induction es generalizing s with
  | nil => rw [procRun, h0] at h; cases h
  | cons e rest ih =>
    cases hs : (procStep setup s e).ended with
    | none =>
      obtain ⟨a, e', b, rfl, h1, h2⟩ := ih (procStep_inv hi e) hs h
      exact ⟨e :: a, e', b, rfl, h1, h2⟩
    | some y =>
      have := procRun_ended (setup := setup) hs rest
      rw [procRun, this] at h
      injection h with h
      exact ⟨[], e, rest, rfl, h0, by rw [procRun, hs, h]⟩

theorem lifeOps_append (setup : FwdSetup) (s : FwdLife) (a b : List FwdEvent) :
    lifeOps setup s (a ++ b) = lifeOps setup s a ++ lifeOps setup (lifeRun setup s a) b := by
  induction a generalizing s with
  | nil => rfl
  | cons ev a ih => simp only [List.cons_append, lifeOps, lifeRun, ih, List.append_assoc]

theorem ops_before {setup : FwdSetup} {s : FwdProcess} (hi : ProcInv s) (h0 : s.ended = none) {a : List ProcEvent} (h : (procRun setup s a).ended = none) :
    ∀ op ∈ lifeOps setup s.life (a.map (·.ev)), notTerminate op := by
  induction a generalizing s with
  | nil => intro op hop; cases hop
  | cons e a ih =>
    have hs : (procStep setup s e).ended = none := by
      cases hs : (procStep setup s e).ended with
      | none => rfl
      | some x => rw [procRun, procRun_ended hs] at h; cases h
    intro op hop
    rw [List.map_cons, lifeOps, List.mem_append] at hop
    rcases hop with hop | hop
    · cases ho : s.life.opOf e.ev with
      | none => rw [ho] at hop; cases hop
      | some op' =>
        rw [ho] at hop
        simp only [Option.toList_some, List.mem_singleton] at hop
        subst hop
        cases op with
        | terminate ok => unfold procStep at hs; simp only [h0, ho, reduceCtorEq] at hs
        | _ => trivial
    · have := ih (procStep_inv hi e) hs h
      rw [procStep_life] at this
      exact this op hop

theorem fwdMain_procInv {o : FwdOpts} {w : FwdWorld} {k : Kernel} {p : FwdProc} (h : fwdMain o w = (k, .ok p)) :
    ProcInv ⟨p.life, none⟩ ∧ fwdStart p.setup.conf w.kernel w.nftOk = some p.life.core ∧ ∃ n, ChainOf p.setup.conf n := by
  obtain ⟨-, -, -, -, -, -, -, hstart, -⟩ := lifeStart_ok (fwdMain_lifeStart h)
  obtain ⟨hp, n, hn, hi⟩ := fwdStart_inv hstart
  refine ⟨⟨?_, by simp [hp, FwdPhase.alive]⟩, hstart, n, hn⟩
  unfold NotCrashed
  rw [hp]
  exact (inv_running hi hp).2.1

theorem procStep_ended {setup : FwdSetup} {n : NftNames} (hn : ChainOf setup.conf n) {s : FwdProcess} (h : ProcInv s) (hend : s.ended = none) (e : ProcEvent) :
    (∀ ok, Ends s.life e ok → (procStep setup s e).ended = some (if ok = true ∧ e.exitcode = .ok () then .success else .failure) ∧
      ownRules n (procStep setup s e).life.core.kernel = if ok then [] else ownRules n s.life.core.kernel) ∧
    ((∀ ok, ¬ Ends s.life e ok) → (procStep setup s e).ended = none) := by
  obtain ⟨hc, hi⟩ := h
  have ha := hi.1 hend
  have hd : s.life.core.fw.shutdown = false := by
    unfold NotCrashed at hc
    cases hp : s.life.core.phase <;> simp_all [FwdPhase.alive]
  refine ⟨fun ok he => ?_, fun he => ?_⟩
  · have hop := opOf_terminate.2 he
    have hds := doShutdown_result hn hd s.life.core.kernel ok
    refine ⟨?_, ?_⟩
    · unfold procStep
      simp only [hend, hop, hds.1]
      have hcase : e.exitcode = .ok () ∨ e.exitcode = .err := by
        unfold ProcEvent.exitcode
        split
        · split <;> simp
        · simp
      cases ok <;> rcases hcase with hx | hx <;> simp [hx, exitAfter, ProcEnd.of]
    · rw [procStep_life, lifeStep_core, hop]
      show ownRules n (fwdStep setup.conf s.life.core (.terminate ok)).2.kernel = _
      rw [← hds.2]
      have hph : s.life.core.phase = .running ∨ s.life.core.phase = .stopping := by
        cases hp : s.life.core.phase <;> simp_all [FwdPhase.alive]
      unfold fwdStep
      rcases hph with hp | hp <;>
      · simp only [hp]
        split <;> (rename_i heq; rw [heq])
  · have hinv := procStep_inv (setup := setup) ⟨hc, hi⟩ e
    refine hinv.2.2 ?_
    rw [procStep_life, lifeStep_core]
    cases hop : s.life.opOf e.ev with
    | none => exact ha
    | some op =>
      refine alive_step ha (fun ok hx => he ok (opOf_terminate.1 (hx ▸ hop))) ?_
      have := notCrashed_run setup.conf [op] s.life.core hc
      exact this

/-- **C96** (what ends it and with which status). While letmeinfwd runs, the next event makes it exit successfully exactly if it is SIGTERM and nft removes the
rules. It exits with a failure exactly if it is SIGTERM and nft fails, or SIGINT, or if a task has failed and the main task hears of it. Otherwise it
runs on. -/
theorem C96_status {o : FwdOpts} {w : FwdWorld} {k : Kernel} {p : FwdProc} (h : fwdMain o w = (k, .ok p)) (es : List ProcEvent)
    (hend : (procRun p.setup ⟨p.life, none⟩ es).ended = none) (e : ProcEvent) :
    ((procRun p.setup ⟨p.life, none⟩ (es ++ [e])).ended = some .success ↔ OrderlyStop e) ∧
    ((procRun p.setup ⟨p.life, none⟩ (es ++ [e])).ended = some .failure ↔
      (∃ ok, Ends (procRun p.setup ⟨p.life, none⟩ es).life e ok) ∧ ¬ OrderlyStop e) ∧
    ((procRun p.setup ⟨p.life, none⟩ (es ++ [e])).ended = none ↔ ∀ ok, ¬ Ends (procRun p.setup ⟨p.life, none⟩ es).life e ok) := by
  obtain ⟨hinv0, hstart, n, hn⟩ := fwdMain_procInv h
  have hinv := procRun_inv (setup := p.setup) hinv0 es
  rw [procRun_snoc]
  generalize procRun p.setup ⟨p.life, none⟩ es = s at hend hinv ⊢
  obtain ⟨h1, h2⟩ := procStep_ended hn hinv hend e
  by_cases he : ∃ ok, Ends s.life e ok
  · obtain ⟨ok, he⟩ := he
    obtain ⟨h3, -⟩ := h1 ok he
    have hord : (ok = true ∧ e.exitcode = .ok ()) ↔ OrderlyStop e := by
      obtain ⟨ev, si⟩ := e
      unfold OrderlyStop ProcEvent.exitcode
      rcases he with he | ⟨he, -⟩
      · simp only at he; subst he; cases ok <;> cases si <;> simp
      · simp only at he; subst he; simp
    rw [h3]
    by_cases ho : OrderlyStop e
    · rw [if_pos (hord.2 ho)]
      exact ⟨⟨fun _ => ho, fun _ => rfl⟩, ⟨fun hx => (by simp at hx), fun hx => absurd ho hx.2⟩, ⟨fun hx => (by simp at hx), fun hx => absurd he (hx ok)⟩⟩
    · rw [if_neg (fun hx => ho (hord.1 hx))]
      exact ⟨⟨fun hx => (by simp at hx), fun hx => absurd hx ho⟩, ⟨fun _ => ⟨⟨ok, he⟩, ho⟩, fun _ => rfl⟩,
        ⟨fun hx => (by simp at hx), fun hx => absurd he (hx ok)⟩⟩
  · have hno : ∀ ok, ¬ Ends s.life e ok := fun ok hx => he ⟨ok, hx⟩
    rw [h2 hno]
    simp only [reduceCtorEq, false_iff, he, false_and, not_false_eq_true, true_iff, true_and]
    exact ⟨fun ho => hno true (.inl ho.1), hno⟩

/-- **C96** (it stays so, and it never aborts). As long as the process has no exit status it is alive; once it has one, that is success or failure, never
an abort, and it keeps it. -/
theorem C96_ended {o : FwdOpts} {w : FwdWorld} {k : Kernel} {p : FwdProc} (h : fwdMain o w = (k, .ok p)) (es : List ProcEvent) :
    ((procRun p.setup ⟨p.life, none⟩ es).ended = none ↔ (procRun p.setup ⟨p.life, none⟩ es).life.core.phase.alive = true) ∧
    ∀ x, (procRun p.setup ⟨p.life, none⟩ es).ended = some x →
      (x = .success ∨ x = .failure) ∧ ∀ later, (procRun p.setup ⟨p.life, none⟩ (es ++ later)).ended = some x := by
  obtain ⟨hinv0, hstart, n, hn⟩ := fwdMain_procInv h
  refine ⟨(procRun_inv hinv0 es).2, fun x hx => ⟨?_, fun later => ?_⟩⟩
  · obtain ⟨a, e, b, rfl, ha, he⟩ := procRun_first hinv0 rfl hx
    have hinv := procRun_inv (setup := p.setup) hinv0 a
    obtain ⟨h1, h2⟩ := procStep_ended hn hinv ha e
    by_cases hex : ∃ ok, Ends (procRun p.setup ⟨p.life, none⟩ a).life e ok
    · obtain ⟨ok, hok⟩ := hex
      rw [(h1 ok hok).1] at he
      injection he with he
      rw [← he]
      split <;> simp
    · rw [h2 fun ok hk => hex ⟨ok, hk⟩] at he
      cases he
  · rw [procRun_append]
    exact procRun_ended hx later

/-- **C96** (nothing left). Whatever has happened, provided nobody else changes the chain: once letmeinfwd has exited successfully, its chain is empty. -/
theorem C96_success_clean {o : FwdOpts} {w : FwdWorld} {k : Kernel} {p : FwdProc} (h : fwdMain o w = (k, .ok p)) {n : NftNames} (hn : ChainOf p.setup.conf n)
    (es : List ProcEvent) (hf : LifeFair p.setup n p.life (es.map (·.ev))) (hs : (procRun p.setup ⟨p.life, none⟩ es).ended = some .success) :
    ownRules n (procRun p.setup ⟨p.life, none⟩ es).life.core.kernel = [] := by
  obtain ⟨hinv0, hstart, -⟩ := fwdMain_procInv h
  obtain ⟨a, e, b, rfl, ha, he⟩ := procRun_first hinv0 rfl hs
  have hord : OrderlyStop e := (C96_status h a ha e).1.1 (by rw [procRun_snoc]; exact he)
  rw [procRun_life, lifeRun_core]
  have hops : lifeOps p.setup p.life ((a ++ e :: b).map (·.ev)) = lifeOps p.setup p.life (a.map (·.ev)) ++ .terminate true ::
      lifeOps p.setup (procRun p.setup ⟨p.life, none⟩ (a ++ [e])).life (b.map (·.ev)) := by
    rw [List.map_append, lifeOps_append, List.map_cons, lifeOps, hord.1, procRun_snoc, procStep_life, procRun_life, hord.1]
    rfl
  have hff := lifeOps_fair hf
  rw [hops] at hff ⊢
  refine C22_shutdown_closes_everything p.setup.conf n hn w.kernel w.nftOk p.life.core hstart _ _ ?_ hff
  exact ops_before hinv0 rfl ha

/-- **C96** (exactly what is left). At the moment letmeinfwd exits, whatever the status, its chain is emptied if nft works and left as it was otherwise. -/
theorem C96_left {o : FwdOpts} {w : FwdWorld} {k : Kernel} {p : FwdProc} (h : fwdMain o w = (k, .ok p)) {n : NftNames} (hn : ChainOf p.setup.conf n)
    (es : List ProcEvent) (hend : (procRun p.setup ⟨p.life, none⟩ es).ended = none) (e : ProcEvent) (ok : Bool)
    (he : Ends (procRun p.setup ⟨p.life, none⟩ es).life e ok) :
    ownRules n (procRun p.setup ⟨p.life, none⟩ (es ++ [e])).life.core.kernel =
      if ok then [] else ownRules n (procRun p.setup ⟨p.life, none⟩ es).life.core.kernel := by
  obtain ⟨hinv0, hstart, -⟩ := fwdMain_procInv h
  rw [procRun_snoc]
  exact ((procStep_ended hn (procRun_inv hinv0 es) hend e).1 ok he).2

/-! ## C97 -/

theorem new_left {conf : Config} {n : NftNames} (hn : ChainOf conf n) {k0 : Kernel} (he : ownRules n k0 = []) (ok : Bool) :
    ownRules n (NftFirewall.new conf k0 ok).2 ≠ [] ↔ ok = true ∧ (conf.port.tcp = true ∨ conf.port.udp = true) := by
  have hp : ∃ r, lifeStart true none none conf k0 ok 0 (fun _ => .err) = ((NftFirewall.new conf k0 ok).2, r) ∧ ∀ x, r ≠ .ok x := by
    unfold lifeStart
    simp only [readEtcPasswd, if_true]
    generalize NftFirewall.new conf k0 ok = x
    obtain ⟨r, k'⟩ := x
    cases r <;> exact ⟨_, rfl, by simp⟩
  obtain ⟨r, h1, h2⟩ := hp
  rw [C59_failed_start_iff hn h1 h2 he]
  simp [readEtcPasswd]

/-- **C97 (exact)**. A signal that kills letmeinfwd during its start-up leaves rules in a chain that was empty exactly if nft's batch has been taken, that is if the
signal arrives while nft runs or between nft and the registration of the handlers, and the control port is enabled. -/
theorem C97_killed_iff {o : FwdOpts} {w : FwdWorld} {pt : BootPoint} {k : Kernel} (h : fwdBoot o w (some pt) = (k, .killed)) {conf : Config}
    (hload : (Config.new .Server).load w.f64 w.order o.config w.file = (.ok (), conf)) {n : NftNames} (hn : ChainOf conf n) (he : ownRules n w.kernel = []) :
    ownRules n k ≠ [] ↔ (pt = .inNft true ∨ pt = .beforeHandlers) ∧ w.nftOk = true ∧ (conf.port.tcp = true ∨ conf.port.udp = true) := by
  rw [← new_left hn he]
  have hcase : k = w.kernel ∧ ¬ (pt = .inNft true ∨ pt = .beforeHandlers) ∨ k = (NftFirewall.new conf w.kernel w.nftOk).2 ∧ (pt = .inNft true ∨ pt = .beforeHandlers) := by
    unfold fwdBoot at h
    simp only [hload] at h
    split at h
    · rename_i hp; injection h with h _; subst hp; exact .inl ⟨h.symm, by simp⟩
    split at h
    · simp at h
    · simp at h
    split at h
    · rename_i hp; injection h with h _; subst hp; exact .inl ⟨h.symm, by simp⟩
    split at h
    · simp at h
    · simp at h
    split at h
    · rename_i hp; injection h with h _; subst hp; exact .inl ⟨h.symm, by simp⟩
    split at h
    · rename_i hp; injection h with h _; exact .inl ⟨h.symm, by rcases hp with rfl | rfl <;> simp⟩
    rename_i h1 _ _ h2 _ _ _ h3 h4
    refine .inr ⟨?_, ?_⟩
    · generalize NftFirewall.new conf w.kernel w.nftOk = x at h
      obtain ⟨r, k'⟩ := x
      cases r <;> (injection h with h _; exact h.symm)
    · cases pt with
      | inNft t => cases t <;> simp_all
      | _ => simp_all
  rcases hcase with ⟨rfl, hp⟩ | ⟨rfl, hp⟩
  · simp [he, hp]
  · simp [hp]

/-- **C97** (nothing else). Without being killed, start-up ends as it would have without the signal: it has failed before the signal came. -/
theorem C97_undisturbed {o : FwdOpts} {w : FwdWorld} {pt : BootPoint} {k : Kernel} {r : R FwdProc} (h : fwdBoot o w (some pt) = (k, .done r)) :
    fwdMain o w = (k, r) ∧ (r = .err ∨ r = .panic) := by
  unfold fwdBoot at h
  unfold fwdMain
  simp only at h
  split at h
  · simp at h
  cases hids : readEtcPasswd o.testMode w.passwd w.group with
  | err => rw [hids] at h; simp only [Prod.mk.injEq, BootEnd.done.injEq] at h; obtain ⟨rfl, rfl⟩ := h; simp
  | panic => rw [hids] at h; simp only [Prod.mk.injEq, BootEnd.done.injEq] at h; obtain ⟨rfl, rfl⟩ := h; simp
  | ok ids =>
    rw [hids] at h
    simp only at h ⊢
    split at h
    · simp at h
    generalize fwdMakeRunSubdir w.fsEnv o.testMode ids.2 w.fs = d at h ⊢
    obtain ⟨res, i, fs⟩ := d
    cases res with
    | err => simp only [Prod.mk.injEq, BootEnd.done.injEq] at h; obtain ⟨rfl, rfl⟩ := h; simp
    | panic => simp only [Prod.mk.injEq, BootEnd.done.injEq] at h; obtain ⟨rfl, rfl⟩ := h; simp
    | ok u =>
      simp only at h ⊢
      split at h
      · simp at h
      generalize (Config.new .Server).load w.f64 w.order o.config w.file = l at h ⊢
      obtain ⟨lr, conf⟩ := l
      cases lr with
      | err => simp only [Prod.mk.injEq, BootEnd.done.injEq] at h; obtain ⟨rfl, rfl⟩ := h; simp
      | panic => simp only [Prod.mk.injEq, BootEnd.done.injEq] at h; obtain ⟨rfl, rfl⟩ := h; simp
      | ok u =>
        simp only at h ⊢
        split at h
        · simp at h
        generalize NftFirewall.new conf w.kernel w.nftOk = x at h ⊢
        obtain ⟨xr, k'⟩ := x
        cases xr with
        | ok fw => simp at h
        | err =>
          simp only [Prod.mk.injEq] at h
          obtain ⟨rfl, h⟩ := h
          split at h
          · simp at h
          · injection h with h; subst h; simp
        | panic =>
          simp only [Prod.mk.injEq] at h
          obtain ⟨rfl, h⟩ := h
          split at h
          · simp at h
          · injection h with h; subst h; simp

/-- **C97 (partial)**. From the registration of the handlers on, a signal to terminate, at whatever time, lets letmeinfwd remove its rules, provided nft works and
nobody else changes the chain. Missing: signals before the registration (`C97_killed_iff`, `C97_negation`). -/
theorem C97_handled_partial {o : FwdOpts} {w : FwdWorld} {k : Kernel} {p : FwdProc} (h : fwdBoot o w none = (k, .done (.ok p))) {n : NftNames}
    (hn : ChainOf p.setup.conf n) (es : List ProcEvent) (hend : (procRun p.setup ⟨p.life, none⟩ es).ended = none) (sigint : Bool) :
    ownRules n (procRun p.setup ⟨p.life, none⟩ (es ++ [⟨.signal true, sigint⟩])).life.core.kernel = [] ∧
      (procRun p.setup ⟨p.life, none⟩ (es ++ [⟨.signal true, sigint⟩])).ended = some (if sigint then .failure else .success) := by
  have hm : fwdMain o w = (k, .ok p) := by
    unfold fwdBoot at h
    injection h with h1 h2
    injection h2 with h2
    rw [← h1, ← h2]
  obtain ⟨h1, h2, -⟩ := C96_status hm es hend ⟨.signal true, sigint⟩
  refine ⟨by rw [C96_left hm hn es hend ⟨.signal true, sigint⟩ true (.inl rfl)]; rfl, ?_⟩
  cases sigint with
  | false => exact h1.2 ⟨rfl, rfl⟩
  | true => exact h2.2 ⟨⟨true, .inl rfl⟩, by simp [OrderlyStop]⟩

/-! ## Examples -/

def bootOpts : FwdOpts := { config := [], limit := 8, noSystemd := true, seccomp := some .Kill, testMode := false }

def bootWorld : FwdWorld := { fwdWorld with kernel := ⟨[], 1⟩ }

theorem bootConf : ∃ conf, (Config.new .Server).load bootWorld.f64 bootWorld.order bootOpts.config bootWorld.file = (.ok (), conf) ∧ ChainOf conf fwNames ∧
    conf.port = ⟨5800, true, true⟩ := by
  have h : ((Config.new .Server).load noF64 id [] (.text mainText)).1 = .ok () := by decide +kernel
  have hl : (Config.new .Server).load noF64 id [] (.text mainText) = (.ok (), ((Config.new .Server).load noF64 id [] (.text mainText)).2) := by
    rw [← h]
  exact ⟨_, hl, ⟨by decide +kernel, by decide +kernel, by decide +kernel, by decide, by decide⟩, by decide +kernel⟩

/-- **C97 is false**. SIGTERM, SIGINT or SIGHUP after the rules have been written and before the handlers are registered: no letmeinfwd, and the control port is open. -/
theorem C97_negation : ∃ o w pt k conf n, fwdBoot o w (some pt) = (k, .killed) ∧
    (Config.new .Server).load w.f64 w.order o.config w.file = (.ok (), conf) ∧ ChainOf conf n ∧ ownRules n w.kernel = [] ∧
    ∃ pkt, chainAccepts n w.kernel pkt = false ∧ chainAccepts n k pkt = true := by
  obtain ⟨conf, hl, hn, hp⟩ := bootConf
  have h : (match fwdBoot bootOpts bootWorld (some .beforeHandlers) with
      | (k, .killed) => chainAccepts fwNames k ⟨examplePeer, .tcp, 5800⟩
      | _ => false) = true := by decide +kernel
  split at h
  · rename_i k hb
    exact ⟨bootOpts, bootWorld, _, k, conf, fwNames, hb, hl, hn, by decide, ⟨examplePeer, .tcp, 5800⟩, by decide, h⟩
  · cases h

/-- Killed while nft runs; before that; and not killed, since there is no such account. -/
example : (∃ k, fwdBoot bootOpts bootWorld (some (.inNft true)) = (k, .killed) ∧ ownRules fwNames k ≠ []) ∧
    (∃ k, fwdBoot bootOpts bootWorld (some .beforeFirewall) = (k, .killed) ∧ ownRules fwNames k = []) ∧
    ∃ k r, fwdBoot bootOpts { bootWorld with passwd := none } (some .beforeConfig) = (k, .done r) := by
  obtain ⟨conf, hl, hn, hp⟩ := bootConf
  have h1 : (match fwdBoot bootOpts bootWorld (some (.inNft true)) with | (_, .killed) => true | _ => false) = true := by decide +kernel
  have h2 : (match fwdBoot bootOpts bootWorld (some .beforeFirewall) with | (_, .killed) => true | _ => false) = true := by decide +kernel
  have h3 : (match fwdBoot bootOpts { bootWorld with passwd := none } (some .beforeConfig) with | (_, .done _) => true | _ => false) = true := by
    decide +kernel
  refine ⟨?_, ?_, ?_⟩
  · split at h1
    · rename_i k hb
      exact ⟨k, hb, (C97_killed_iff hb hl hn (by decide)).2 ⟨.inl rfl, rfl, .inl (by rw [hp])⟩⟩
    · cases h1
  · split at h2
    · rename_i k hb
      refine ⟨k, hb, Classical.byContradiction fun hx => ?_⟩
      have := ((C97_killed_iff hb hl hn (by decide)).1 hx).1
      simp at this
    · cases h2
  · split at h3
    · rename_i k r hb; exact ⟨k, r, hb⟩
    · cases h3

theorem bootStarts : ∃ k p, fwdMain bootOpts bootWorld = (k, .ok p) ∧ ChainOf p.setup.conf fwNames := by
  have h : (match fwdMain bootOpts bootWorld with
      | (_, .ok p) => decide (p.setup.conf.nftTable = fwNames.table) && decide (p.setup.conf.nftChainInput = fwNames.chainInput)
      | _ => false) = true := by decide +kernel
  obtain ⟨conf, hl, hn, hp⟩ := bootConf
  split at h
  · rename_i k p hb
    refine ⟨k, p, hb, ?_⟩
    obtain ⟨ids, d, conf', fw, r, -, -, -, hload, -, -, -, rfl⟩ := fwdMain_ok hb
    rw [hl] at hload
    injection hload with _ hload
    subst hload
    exact hn
  · cases h

/-- SIGHUP, then SIGTERM: success and nothing left. SIGTERM and nft fails: failure. SIGINT: failure and nothing left. -/
example : ∃ k p, fwdMain bootOpts bootWorld = (k, .ok p) ∧
    ((procRun p.setup ⟨p.life, none⟩ [⟨.sighup, false⟩, ⟨.signal true, false⟩]).ended = some .success ∧
      ownRules fwNames (procRun p.setup ⟨p.life, none⟩ [⟨.sighup, false⟩, ⟨.signal true, false⟩]).life.core.kernel = []) ∧
    (procRun p.setup ⟨p.life, none⟩ [⟨.signal false, false⟩]).ended = some .failure ∧
    ((procRun p.setup ⟨p.life, none⟩ [⟨.signal true, true⟩]).ended = some .failure ∧
      ownRules fwNames (procRun p.setup ⟨p.life, none⟩ [⟨.signal true, true⟩]).life.core.kernel = []) := by
  obtain ⟨k, p, h, hn⟩ := bootStarts
  have h1 : (procRun p.setup ⟨p.life, none⟩ [⟨.sighup, false⟩]).ended = none := (C96_status h [] rfl ⟨.sighup, false⟩).2.2.2 (by simp [Ends])
  have hb : fwdBoot bootOpts bootWorld none = (k, .done (.ok p)) := by unfold fwdBoot; rw [h]
  obtain ⟨a1, a2⟩ := C97_handled_partial hb hn [⟨.sighup, false⟩] h1 false
  obtain ⟨b1, b2⟩ := C97_handled_partial hb hn [] rfl true
  exact ⟨k, p, h, ⟨a2, C96_success_clean h hn _ (by simp [LifeFair, EventFair]) a2⟩,
    (C96_status h [] rfl ⟨.signal false, false⟩).2.1.2 ⟨⟨false, .inl rfl⟩, by simp [OrderlyStop]⟩, b2, b1⟩

/-- Accepting fails, and the main task hears of it: failure, kept afterwards. -/
example : ∃ k p, fwdMain bootOpts bootWorld = (k, .ok p) ∧
    (procRun p.setup ⟨p.life, none⟩ [⟨.acceptError, false⟩, ⟨.exitRecv true, false⟩, ⟨.signal true, false⟩]).ended = some .failure := by
  obtain ⟨k, p, h, hn⟩ := bootStarts
  have h1 : (procRun p.setup ⟨p.life, none⟩ [⟨.acceptError, false⟩]).ended = none := (C96_status h [] rfl ⟨.acceptError, false⟩).2.2.2 (by simp [Ends])
  have hx : (procRun p.setup ⟨p.life, none⟩ [⟨.acceptError, false⟩]).life.exitMsg = true := by
    obtain ⟨ids, d, conf', fw, r, -, -, -, hload, -, -, -, rfl⟩ := fwdMain_ok h
    rfl
  have h2 := (C96_status h _ h1 ⟨.exitRecv true, false⟩).2.1.2 ⟨⟨true, .inr ⟨rfl, .inl hx⟩⟩, by simp [OrderlyStop]⟩
  exact ⟨k, p, h, ((C96_ended h _).2 _ h2).2 [⟨.signal true, false⟩]⟩

end Letmein.Props
