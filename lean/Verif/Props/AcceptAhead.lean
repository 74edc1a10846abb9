import Verif.Spec.AcceptAhead
import Verif.Props.Exact

/-!
# Property C104: accepting ahead of the loop
-/

namespace Letmein.Props

open Letmein Prog Spec

theorem aheadRun_append (fdMax : Nat) (s : LmAhead) (a b : List AheadEv) : aheadRun fdMax s (a ++ b) = aheadRun fdMax (aheadRun fdMax s a) b := by
  induction a generalizing s with
  | nil => rfl
  | cons ev a ih => exact ih _

/-! ## One step -/

/-- A connection is only held when a descriptor was free, and stays free. -/
def AheadInv (fdMax : Nat) (s : LmAhead) : Prop := s.core.phase = .running → s.tcp = .got → s.core.fds < fdMax

theorem fds_accepted_udp (s : LmState) (ha : s.accept = .accepting) : (s.accepted false).fds = s.fds := by
  unfold LmState.accepted
  dsimp only
  split <;> simp [LmState.fds, LmState.unclosed, ha, List.filter_append]

theorem fds_acceptFailed (s : LmState) (ha : s.accept = .accepting) : s.acceptFailed.fds = s.fds := by
  simp [LmState.acceptFailed, LmState.fds, LmState.unclosed, ha]

theorem fds_sessionDone (s : LmState) (id : Nat) :
    ({ s with sessions := s.sessions.filter (fun c => c.id ≠ id) } : LmState).fds ≤ s.fds := by
  simp only [LmState.fds, LmState.unclosed, List.filter_append, List.length_append]
  have : ((s.sessions.filter (fun c => decide (c.id ≠ id))).filter (·.tcp)).length ≤ (s.sessions.filter (·.tcp)).length :=
    (List.filter_sublist.filter _).length_le
  omega

/-- One event with the tasks is at most one event without. -/
theorem ahead_step (fdMax : Nat) (s : LmAhead) (hi : AheadInv fdMax s) (ev : AheadEv) :
    AheadInv fdMax (aheadStep fdMax s ev) ∧
      ∃ ops, lmRun fdMax s.core ops = (aheadStep fdMax s ev).core ∧ ops.filterMap LmOp.plain = (AheadEv.plain ev).toList := by
  cases hp : s.core.phase with
  | exited c =>
    have hst : aheadStep fdMax s ev = s := by simp [aheadStep, hp]
    rw [hst]
    refine ⟨hi, (AheadEv.plain ev).toList, ?_, ?_⟩
    · cases ev <;> simp [AheadEv.plain, lmRun, lmStep, hp]
    · cases ev <;> simp [AheadEv.plain, LmOp.plain]
  | aborted =>
    have hst : aheadStep fdMax s ev = s := by simp [aheadStep, hp]
    rw [hst]
    refine ⟨hi, (AheadEv.plain ev).toList, ?_, ?_⟩
    · cases ev <;> simp [AheadEv.plain, lmRun, lmStep, hp]
    · cases ev <;> simp [AheadEv.plain, LmOp.plain]
  | running =>
    cases ev with
    | tcpArrives =>
      refine ⟨?_, [], by simp [lmRun, aheadStep, hp], rfl⟩
      intro _ hg
      simp only [aheadStep, hp, JoinTask.finish] at hg ⊢
      split at hg
      · split at hg
        · cases hg
        · split at hg
          · assumption
          · cases hg
      · exact hi hp hg
    | tcpFails =>
      refine ⟨?_, [], by simp [lmRun, aheadStep, hp], rfl⟩
      intro _ hg
      simp only [aheadStep, hp, JoinTask.finish] at hg ⊢
      split at hg
      · split at hg <;> cases hg
      · exact hi hp hg
    | udpArrives => exact ⟨fun _ hg => by simp only [aheadStep, hp] at hg ⊢; exact hi hp hg, [], by simp [lmRun, aheadStep, hp], rfl⟩
    | udpFails => exact ⟨fun _ hg => by simp only [aheadStep, hp] at hg ⊢; exact hi hp hg, [], by simp [lmRun, aheadStep, hp], rfl⟩
    | pickTcp nodelay =>
      simp only [aheadStep, hp]
      unfold LmAhead.pick
      split
      · rename_i ha ht
        refine ⟨fun _ hg => by simp at hg, ?_⟩
        have hfd := hi hp ht
        cases nodelay with
        | true => exact ⟨[.connectTcp], by simp [lmRun, lmStep, hp, ha, hfd], rfl⟩
        | false => exact ⟨[.acceptError], by simp [lmRun, lmStep, hp, ha], rfl⟩
      · rename_i ha ht
        exact ⟨fun _ hg => by simp at hg, [.acceptError], by simp [lmRun, lmStep, hp, ha], rfl⟩
      · exact ⟨hi, [], rfl, rfl⟩
    | pickUdp =>
      simp only [aheadStep, hp]
      unfold LmAhead.pick
      split
      · rename_i ha ht
        refine ⟨fun _ hg => ?_, [.connectUdp], by simp [lmRun, lmStep, hp, ha], rfl⟩
        simp only [if_true] at hg ⊢
        rw [fds_accepted_udp _ ha]
        exact hi hp hg
      · rename_i ha ht
        refine ⟨fun _ hg => ?_, [.acceptError], by simp [lmRun, lmStep, hp, ha], rfl⟩
        simp only at hg ⊢
        rw [fds_acceptFailed _ ha]
        exact hi hp hg
      · exact ⟨hi, [], rfl, rfl⟩
    | sessionDone id =>
      refine ⟨?_, [.sessionDone id], by simp [lmRun, lmStep, aheadStep, hp], rfl⟩
      intro _ hg
      simp only [aheadStep, hp] at hg ⊢
      exact Nat.lt_of_le_of_lt (fds_sessionDone _ _) (hi hp hg)
    | sessionPanic =>
      exact ⟨fun h => by simp [aheadStep, hp] at h, [.sessionPanic], by simp [lmRun, lmStep, aheadStep, hp], rfl⟩
    | sigterm =>
      refine ⟨fun h => ?_, [.sigterm], by simp [lmRun, lmStep, aheadStep, hp], rfl⟩
      simp only [aheadStep, hp, LmState.leave] at h
      split at h <;> cases h
    | sigint =>
      refine ⟨fun h => ?_, [.sigint], by simp [lmRun, lmStep, aheadStep, hp], rfl⟩
      simp only [aheadStep, hp, LmState.leave] at h
      split at h <;> cases h
    | sighup => exact ⟨by simpa [aheadStep, hp] using hi, [.sighup], by simp [lmRun, lmStep, aheadStep, hp], rfl⟩
    | exitRecv =>
      refine ⟨?_, [.exitRecv], ?_, rfl⟩
      · simp only [aheadStep, hp]
        split
        · intro h
          simp only [LmState.leave] at h
          split at h <;> cases h
        · exact hi
      · simp only [lmRun, lmStep, aheadStep, hp]
        split <;> rfl

theorem ahead_run (fdMax : Nat) (evs : List AheadEv) : ∀ s, AheadInv fdMax s →
    ∃ ops, lmRun fdMax s.core ops = (aheadRun fdMax s evs).core ∧ ops.filterMap LmOp.plain = evs.filterMap AheadEv.plain := by
  induction evs with
  | nil => exact fun s _ => ⟨[], rfl, rfl⟩
  | cons ev evs ih =>
    intro s hi
    obtain ⟨h1, a, h2, h3⟩ := ahead_step fdMax s hi ev
    obtain ⟨b, h4, h5⟩ := ih _ h1
    refine ⟨a ++ b, by rw [lmRun_append, h2, h4]; rfl, ?_⟩
    rw [List.filterMap_append, h3, h5, List.filterMap_cons]
    cases AheadEv.plain ev <;> rfl

theorem aheadStart_ok {limit : Nat} {s : LmAhead} (h : aheadStart limit = .ok s) :
    lmStart limit = .ok s.core ∧ s.tcp = .waiting ∧ s.udp = .waiting := by
  unfold aheadStart at h
  cases hl : lmStart limit with
  | ok c => rw [hl] at h; simp at h; subst h; simp
  | err => rw [hl] at h; simp at h
  | panic => rw [hl] at h; simp at h

/-! ## C104 -/

/-- **C104** (nothing new happens). Whatever happens in letmeind with the tasks that accept ahead could have happened without them: there is a history in which the loop
accepts itself, with the same signals, ends of sessions and so on in the same order, that leads to the same sessions, the same state of the loop and of the process. -/
theorem C104_refines {limit fdMax : Nat} {s : LmAhead} (h : aheadStart limit = .ok s) (evs : List AheadEv) :
    ∃ s0 ops, lmStart limit = .ok s0 ∧ lmRun fdMax s0 ops = (aheadRun fdMax s evs).core ∧ ops.filterMap LmOp.plain = evs.filterMap AheadEv.plain := by
  obtain ⟨h1, h2, _⟩ := aheadStart_ok h
  obtain ⟨ops, h3, h4⟩ := ahead_run fdMax evs s (fun _ hg => by rw [h2] at hg; cases hg)
  exact ⟨s.core, ops, h1, h3, h4⟩

/-- Both tasks are waiting, or the process or the loop has ended. -/
theorem ahead_sim (fdMax : Nat) (op : LmOp) (s : LmAhead) (hw : s.core.accept = .accepting → s.tcp = .waiting ∧ s.udp = .waiting) :
    ∃ evs, (aheadRun fdMax s evs).core = lmStep fdMax s.core op ∧ evs.filterMap AheadEv.plain = (LmOp.plain op).toList ∧
      ((aheadRun fdMax s evs).core.accept = .accepting → (aheadRun fdMax s evs).tcp = .waiting ∧ (aheadRun fdMax s evs).udp = .waiting) := by
  cases hp : s.core.phase with
  | exited c =>
    cases op <;> first
      | exact ⟨[], by simp [aheadRun, lmStep, hp], rfl, hw⟩
      | exact ⟨[.sessionDone _], by simp [aheadRun, aheadStep, lmStep, hp], rfl, by simpa [aheadRun, aheadStep, hp] using hw⟩
      | exact ⟨[.sessionPanic], by simp [aheadRun, aheadStep, lmStep, hp], rfl, by simpa [aheadRun, aheadStep, hp] using hw⟩
      | exact ⟨[.sigterm], by simp [aheadRun, aheadStep, lmStep, hp], rfl, by simpa [aheadRun, aheadStep, hp] using hw⟩
      | exact ⟨[.sigint], by simp [aheadRun, aheadStep, lmStep, hp], rfl, by simpa [aheadRun, aheadStep, hp] using hw⟩
      | exact ⟨[.sighup], by simp [aheadRun, aheadStep, lmStep, hp], rfl, by simpa [aheadRun, aheadStep, hp] using hw⟩
      | exact ⟨[.exitRecv], by simp [aheadRun, aheadStep, lmStep, hp], rfl, by simpa [aheadRun, aheadStep, hp] using hw⟩
  | aborted =>
    cases op <;> first
      | exact ⟨[], by simp [aheadRun, lmStep, hp], rfl, hw⟩
      | exact ⟨[.sessionDone _], by simp [aheadRun, aheadStep, lmStep, hp], rfl, by simpa [aheadRun, aheadStep, hp] using hw⟩
      | exact ⟨[.sessionPanic], by simp [aheadRun, aheadStep, lmStep, hp], rfl, by simpa [aheadRun, aheadStep, hp] using hw⟩
      | exact ⟨[.sigterm], by simp [aheadRun, aheadStep, lmStep, hp], rfl, by simpa [aheadRun, aheadStep, hp] using hw⟩
      | exact ⟨[.sigint], by simp [aheadRun, aheadStep, lmStep, hp], rfl, by simpa [aheadRun, aheadStep, hp] using hw⟩
      | exact ⟨[.sighup], by simp [aheadRun, aheadStep, lmStep, hp], rfl, by simpa [aheadRun, aheadStep, hp] using hw⟩
      | exact ⟨[.exitRecv], by simp [aheadRun, aheadStep, lmStep, hp], rfl, by simpa [aheadRun, aheadStep, hp] using hw⟩
  | running =>
    cases op with
    | connectTcp =>
      cases ha : s.core.accept with
      | accepting =>
        obtain ⟨ht, hu⟩ := hw ha
        refine ⟨[.tcpArrives, .pickTcp true], ?_, rfl, ?_⟩ <;>
          by_cases hf : s.core.fds < fdMax <;> simp [aheadRun, aheadStep, lmStep, hp, ha, ht, hu, JoinTask.finish, LmAhead.pick, hf]
      | acquiring c => exact ⟨[], by simp [aheadRun, lmStep, hp, ha], rfl, hw⟩
      | ended => exact ⟨[], by simp [aheadRun, lmStep, hp, ha], rfl, hw⟩
    | connectUdp =>
      cases ha : s.core.accept with
      | accepting =>
        obtain ⟨ht, hu⟩ := hw ha
        refine ⟨[.udpArrives, .pickUdp], ?_, rfl, ?_⟩ <;>
          simp [aheadRun, aheadStep, lmStep, hp, ha, ht, hu, JoinTask.finish, LmAhead.pick]
      | acquiring c => exact ⟨[], by simp [aheadRun, lmStep, hp, ha], rfl, hw⟩
      | ended => exact ⟨[], by simp [aheadRun, lmStep, hp, ha], rfl, hw⟩
    | acceptError =>
      cases ha : s.core.accept with
      | accepting =>
        obtain ⟨ht, hu⟩ := hw ha
        refine ⟨[.tcpFails, .pickTcp true], ?_, rfl, ?_⟩ <;>
          simp [aheadRun, aheadStep, lmStep, hp, ha, ht, hu, JoinTask.finish, LmAhead.pick]
      | acquiring c => exact ⟨[], by simp [aheadRun, lmStep, hp, ha], rfl, hw⟩
      | ended => exact ⟨[], by simp [aheadRun, lmStep, hp, ha], rfl, hw⟩
    | sessionDone id => exact ⟨[.sessionDone id], by simp [aheadRun, aheadStep, lmStep, hp], rfl, by simpa [aheadRun, aheadStep, hp] using hw⟩
    | sessionPanic => exact ⟨[.sessionPanic], by simp [aheadRun, aheadStep, lmStep, hp], rfl, by simpa [aheadRun, aheadStep, hp] using hw⟩
    | sigterm => exact ⟨[.sigterm], by simp [aheadRun, aheadStep, lmStep, hp], rfl, by simpa [aheadRun, aheadStep, hp, LmState.leave] using hw⟩
    | sigint => exact ⟨[.sigint], by simp [aheadRun, aheadStep, lmStep, hp], rfl, by simpa [aheadRun, aheadStep, hp, LmState.leave] using hw⟩
    | sighup => exact ⟨[.sighup], by simp [aheadRun, aheadStep, lmStep, hp], rfl, by simpa [aheadRun, aheadStep, hp] using hw⟩
    | exitRecv =>
      refine ⟨[.exitRecv], ?_, rfl, ?_⟩
      · simp only [aheadRun, aheadStep, lmStep, hp]
        split <;> rfl
      · simp only [aheadRun, aheadStep, hp]
        split
        · simpa [LmState.leave] using hw
        · exact hw

/-- **C104** (nothing is lost). Conversely whatever can happen when the loop accepts itself can happen with the tasks. -/
theorem C104_complete {limit fdMax : Nat} {s0 : LmState} (h : lmStart limit = .ok s0) (ops : List LmOp) :
    ∃ s evs, aheadStart limit = .ok s ∧ (aheadRun fdMax s evs).core = lmRun fdMax s0 ops ∧ evs.filterMap AheadEv.plain = ops.filterMap LmOp.plain := by
  have key : ∀ (ops : List LmOp) (s : LmAhead), (s.core.accept = .accepting → s.tcp = .waiting ∧ s.udp = .waiting) →
      ∃ evs, (aheadRun fdMax s evs).core = lmRun fdMax s.core ops ∧ evs.filterMap AheadEv.plain = ops.filterMap LmOp.plain := by
    intro ops
    induction ops with
    | nil => exact fun s _ => ⟨[], rfl, rfl⟩
    | cons op ops ih =>
      intro s hw
      obtain ⟨a, h1, h2, h3⟩ := ahead_sim fdMax op s hw
      obtain ⟨b, h4, h5⟩ := ih _ h3
      refine ⟨a ++ b, by rw [aheadRun_append, h4, h1]; rfl, ?_⟩
      rw [List.filterMap_append, h2, h5, List.filterMap_cons]
      cases LmOp.plain op <;> rfl
  obtain ⟨evs, h1, h2⟩ := key ops ⟨s0, .waiting, .waiting⟩ (fun _ => ⟨rfl, rfl⟩)
  exact ⟨⟨s0, .waiting, .waiting⟩, evs, by simp [aheadStart, h], h1, h2⟩

/-- The connections that wait for the loop. -/
def heldBy : JoinTask → Nat
  | .got => 1
  | _ => 0

theorem takes_step (fdMax : Nat) (s : LmAhead) (ev : AheadEv) :
    (takesTcp fdMax s ev).toNat + heldBy s.tcp = (getsTcp s ev).toNat + heldBy (aheadStep fdMax s ev).tcp := by
  cases hp : s.core.phase with
  | exited c => simp [takesTcp, getsTcp, aheadStep, hp]
  | aborted => simp [takesTcp, getsTcp, aheadStep, hp]
  | running =>
    cases ev with
    | tcpArrives =>
      cases ht : s.tcp <;> by_cases ha : s.core.accept = .ended <;> by_cases hf : s.core.fds < fdMax <;>
        simp [takesTcp, getsTcp, aheadStep, hp, ht, ha, hf, JoinTask.finish, heldBy]
    | tcpFails =>
      cases ht : s.tcp <;> by_cases ha : s.core.accept = .ended <;> simp [takesTcp, getsTcp, aheadStep, hp, ht, ha, JoinTask.finish, heldBy]
    | udpArrives => simp [takesTcp, getsTcp, aheadStep, hp]
    | udpFails => simp [takesTcp, getsTcp, aheadStep, hp]
    | pickTcp nodelay =>
      cases ht : s.tcp <;> cases ha : s.core.accept <;> cases nodelay <;> simp [takesTcp, getsTcp, aheadStep, hp, ht, ha, LmAhead.pick, heldBy]
    | pickUdp => simp [takesTcp, getsTcp, aheadStep, hp]
    | sessionDone id => simp [takesTcp, getsTcp, aheadStep, hp]
    | sessionPanic => simp [takesTcp, getsTcp, aheadStep, hp]
    | sigterm => simp [takesTcp, getsTcp, aheadStep, hp]
    | sigint => simp [takesTcp, getsTcp, aheadStep, hp]
    | sighup => simp [takesTcp, getsTcp, aheadStep, hp]
    | exitRecv => simp only [takesTcp, getsTcp, aheadStep, hp]; split <;> simp

/-- **C104** (one at a time). The connections that the TCP task has taken from the listener are those that the loop has got, except for at most one that is waiting for it. -/
theorem C104_one_ahead {limit fdMax : Nat} {s : LmAhead} (h : aheadStart limit = .ok s) (evs : List AheadEv) :
    nTakesTcp fdMax s evs = nGetsTcp fdMax s evs + (if (aheadRun fdMax s evs).tcp = .got then 1 else 0) := by
  have key : ∀ (evs : List AheadEv) (s : LmAhead), nTakesTcp fdMax s evs + heldBy s.tcp =
      nGetsTcp fdMax s evs + heldBy (aheadRun fdMax s evs).tcp := by
    intro evs
    induction evs with
    | nil => intro s; simp [nTakesTcp, nGetsTcp, aheadRun]
    | cons ev evs ih =>
      intro s
      have h1 := takes_step fdMax s ev
      have h2 := ih (aheadStep fdMax s ev)
      simp only [nTakesTcp, nGetsTcp, aheadRun]
      omega
  have := key evs s
  rw [(aheadStart_ok h).2.1] at this
  rw [show heldBy .waiting = 0 from rfl, Nat.add_zero] at this
  rw [this]
  cases (aheadRun fdMax s evs).tcp <;> simp [heldBy]

/-- **C104** (termination). With the tasks, too, SIGTERM ends letmeind with success if and only if no session is in progress; a connection that waits for the loop does no harm. -/
theorem C104_sigterm {limit fdMax : Nat} (hl : 0 < limit) {s : LmAhead} (h : aheadStart limit = .ok s) (evs : List AheadEv)
    (hr : (aheadRun fdMax s evs).core.phase = .running) :
    (aheadRun fdMax s (evs ++ [.sigterm])).core.phase = (if (aheadRun fdMax s evs).core.sessions = [] then .exited (.ok ()) else .aborted) := by
  obtain ⟨s0, ops, h1, h2, _⟩ := C104_refines (fdMax := fdMax) h evs
  have hreach : LmReach limit fdMax (aheadRun fdMax s evs).core := h2 ▸ lmReach_run (.start h1) ops
  rw [← (C57_exit_iff hl hreach hr []).1, aheadRun_append]
  simp [aheadRun, aheadStep, lmRun, lmStep, hr]

/-! ### Examples -/

/-- Two descriptors. A connection is accepted ahead and handed out, a second one is accepted while the first is served; a UDP peer comes, a session ends, the third connection finds no
descriptor, which ends the loop; a further one is accepted and dropped. -/
def aheadEvs : List AheadEv := [.tcpArrives, .tcpArrives, .pickTcp true, .tcpArrives, .udpArrives, .pickUdp, .pickTcp true, .tcpArrives, .sessionDone 1, .pickTcp true, .tcpArrives]

example : ∃ s, aheadStart 8 = .ok s ∧ nTakesTcp 2 s aheadEvs = 2 ∧ nGetsTcp 2 s aheadEvs = 2 ∧
    (aheadRun 2 s aheadEvs).core.sessions = [⟨0, true⟩, ⟨2, true⟩] ∧ (aheadRun 2 s aheadEvs).core.accept = .ended ∧ (aheadRun 2 s aheadEvs).tcp = .gone ∧
    (aheadRun 2 s aheadEvs).core.phase = .running ∧ (aheadRun 2 s (aheadEvs.take 4)).tcp = .got ∧
    nTakesTcp 2 s (aheadEvs.take 4) = 2 ∧ nGetsTcp 2 s (aheadEvs.take 4) = 1 ∧
    (aheadRun 2 s [.tcpArrives, .sigterm]).core.phase = .exited (.ok ()) ∧ (aheadRun 2 s (aheadEvs.take 4 ++ [.sigterm])).core.phase = .aborted :=
  ⟨_, rfl, by decide⟩

end Letmein.Props
