import Verif.Props.Exact
import Verif.Props.FwCount
import Verif.Props.FwAccept

/-!
# Properties: what the daemons do when nothing goes wrong

C91 says that letmeinfwd runs until there is a reason to stop. The exact conditions of C46, C61 and C78 complete the theorems that give necessary
conditions only.
-/

namespace Letmein.Spec

/-- The event is a reason for letmeinfwd to stop: a signal, a connection that cannot be accepted or comes from somebody else, or the failure of
the run of nft that rebuilds the chain. -/
def Reason (passwd group : Option Str) : FwdEvent → Prop
  | .signal _ => True
  | .acceptError => True
  | .connect cred pidFile => ¬ IsLetmeind passwd group pidFile cred
  | .maintain _ env => env.rebuildOk = false
  | _ => False

/-- The hash map is iterated in another order, which keeps its entries. -/
def OnlyReorders (setup : FwdSetup) : FwdLife → List FwdEvent → Prop
  | _, [] => True
  | s, ev :: rest => (∀ l, ev = .reorder l → l.Perm s.core.fw.leases) ∧ OnlyReorders setup (lifeStep setup s ev) rest

/-- The socket that a descriptor passed by systemd is for a program built with these features. -/
def KindOf (feat : SystemdFeatures) (f : PassedFd) : SystemdSocket → Prop
  | .Udp fd => fd = f.fd ∧ feat.udp = true ∧ IsInet f ∧ f.sockType = some .dgram
  | .Tcp fd => fd = f.fd ∧ feat.tcp = true ∧ IsInet f ∧ f.sockType = some .stream
  | .Unix fd => fd = f.fd ∧ feat.unix = true ∧ f.isSocket = true ∧ f.family = some .unix ∧ f.sockType = some .stream

/-- The same number of elements, related one by one. -/
inductive Pointwise {α β : Type} (P : α → β → Prop) : List α → List β → Prop
  | nil : Pointwise P [] []
  | cons {a : α} {b : β} {l : List α} {m : List β} : P a b → Pointwise P l m → Pointwise P (a :: l) (b :: m)

/-- The TCP sockets passed. -/
def tcpFds (ss : List SystemdSocket) : List Nat := ss.filterMap fun s => match s with | .Tcp fd => some fd | _ => none
/-- The UDP sockets passed. -/
def udpFds (ss : List SystemdSocket) : List Nat := ss.filterMap fun s => match s with | .Udp fd => some fd | _ => none

/-- At most one, and that one is usable. -/
def AtMostOne (usable : Nat → Bool) (fds : List Nat) : Prop := fds = [] ∨ ∃ fd, fds = [fd] ∧ usable fd = true

/-- The sockets for letmeind are there: without systemd, those configured can be bound; with systemd, no Unix socket is passed, of each configured
protocol at most one that is usable, and then, if a configured one is passed, systemd can be notified, and otherwise those configured can be bound. -/
def CanListen (port : ControlPort) (noSystemd : Bool) (sockets : R (List SystemdSocket)) (usable : Nat → Bool) (notifyOk bindTcp bindUdp : Bool) : Prop :=
  (noSystemd = true ∧ (port.tcp = true → bindTcp = true) ∧ (port.udp = true → bindUdp = true)) ∨
  (noSystemd = false ∧ ∃ ss, sockets = .ok ss ∧ (∀ fd, SystemdSocket.Unix fd ∉ ss) ∧ (port.tcp = true → AtMostOne usable (tcpFds ss)) ∧
    (port.udp = true → AtMostOne usable (udpFds ss)) ∧
    (((port.tcp = true ∧ PassesTcp ss) ∨ (port.udp = true ∧ PassesUdp ss)) → notifyOk = true) ∧
    (¬ ((port.tcp = true ∧ PassesTcp ss) ∨ (port.udp = true ∧ PassesUdp ss)) →
      (port.tcp = true → bindTcp = true) ∧ (port.udp = true → bindUdp = true)))

end Letmein.Spec

namespace Letmein.Props

open Letmein Prog Spec

/-! ## C91: letmeinfwd runs until there is a reason to stop -/

/-- Running and able to rebuild its chain. -/
structure Healthy (n : NftNames) (s : FwdState) : Prop where
  run : s.phase = .running
  up : s.fw.shutdown = false
  supp : ∀ e ∈ s.fw.leases, Supported n.family e.2.addr

theorem removeLeases_not_panic (conf : Config) (ls : List Lease) (k : Kernel) (env : NftEnv) : (removeLeases conf ls k env).1 ≠ .panic := by
  unfold removeLeases
  split
  · simp
  · split
    · simp
    · simp only
      cases hc : collect (genDeleteLeaseCmds conf k.rules) ls with
      | panic => exact absurd hc (collect_not_panic fun _ _ => genDelete_not_panic _ _ _)
      | err => simp
      | ok cs => exact applyBatch_not_panic _ _ _

theorem healthy_maintain {conf : Config} {n : NftNames} (hn : ChainOf conf n) {s : FwdState} (h : Healthy n s) (now : Nat) {env : NftEnv}
    (he : env.rebuildOk = true) : Healthy n (fwdStep conf s (.maintain now env)).2 := by
  obtain ⟨phase, fw, k⟩ := s
  obtain ⟨h1, h2, h3⟩ := h
  simp only at h1 h2 h3
  subst h1
  have hs : ∀ e ∈ (pruneAllLeaseTimeouts now fw.leases).1, Supported n.family e.2.addr := by
    intro e hm
    exact h3 e (List.mem_filter.1 hm).1
  have hm : ∃ k', fw.maintain conf k now env = (.ok (), { fw with leases := (pruneAllLeaseTimeouts now fw.leases).1 }, k') := by
    unfold NftFirewall.maintain
    rw [if_neg (by simp [h2])]
    simp only
    split
    · exact ⟨_, rfl⟩
    · have hr := removeLeases_not_panic conf (pruneAllLeaseTimeouts now fw.leases).2 k env
      generalize removeLeases conf (pruneAllLeaseTimeouts now fw.leases).2 k env = x at *
      obtain ⟨r, k'⟩ := x
      cases r with
      | panic => exact absurd rfl hr
      | ok u => exact ⟨_, rfl⟩
      | err =>
        have := fullRebuild_ok hn (fw := { fw with leases := (pruneAllLeaseTimeouts now fw.leases).1 }) hs h2 (env.beforeRebuild k')
        simp only [he]
        rw [this]
        exact ⟨_, rfl⟩
  obtain ⟨k', hm⟩ := hm
  simp only [fwdStep, hm]
  exact ⟨rfl, h2, hs⟩

theorem healthy_request {conf : Config} {n : NftNames} (hn : ChainOf conf n) {s : FwdState} (h : Healthy n s) (rx : FwRecvOut) (now : Nat) (ok : Bool) :
    Healthy n (fwdStep conf s (.request rx now ok)).2 := by
  obtain ⟨phase, fw, k⟩ := s
  obtain ⟨h1, h2, h3⟩ := h
  simp only at h1 h2 h3
  subst h1
  have hk : ∃ r reply fw' k', handleMessage conf fw k rx now ok = (r, reply, fw', k') ∧ r ≠ .panic ∧ fw'.shutdown = false ∧
      ∀ e ∈ fw'.leases, Supported n.family e.2.addr := by
    unfold handleMessage
    cases hd : fwdDecide conf rx with
    | silent => exact ⟨_, _, _, _, rfl, by simp, h2, h3⟩
    | nack => exact ⟨_, _, _, _, rfl, by simp, h2, h3⟩
    | openPort a p =>
      obtain ⟨m, t, port, -, -, -, -, rfl, -, -, hne⟩ := fwdDecide_open hd
      have hport := openPort_not_panic h2 k now a (p := selection t port) (by cases t <;> exact fun h => hne h.symm) ok
      generalize selection t port = p at *
      have hsup : ∀ e ∈ (fw.openPort conf k now a p ok).2.1.leases, Supported n.family e.2.addr := by
        unfold NftFirewall.openPort
        rw [if_neg (by simp [h2])]
        simp only
        split
        · intro e he
          simp only [leaseUpdate, List.mem_map] at he
          obtain ⟨e', he', rfl⟩ := he
          split
          · exact h3 e' he'
          · exact h3 e' he'
        · cases hl : Lease.new conf now a p with
          | panic => exact h3
          | err => exact h3
          | ok l =>
            simp only
            have hadd : ∀ k', addLease conf l k ok = (.ok (), k') → Supported n.family l.addr := by
              intro k' hx
              by_cases hsu : Supported n.family l.addr
              · exact hsu
              · unfold addLease at hx
                rw [genAddLeaseCmds_err hn hsu] at hx
                simp at hx
            cases ha : addLease conf l k ok with
            | mk r k' =>
              cases r with
              | panic => exact h3
              | err => exact h3
              | ok u =>
                intro e he
                simp only [List.mem_append, List.mem_singleton] at he
                rcases he with he | rfl
                · exact h3 e he
                · exact hadd k' ha
      obtain ⟨hp1, hp2⟩ := hport
      simp only
      generalize fw.openPort conf k now a p ok = x at *
      obtain ⟨r, fw', k'⟩ := x
      cases r with
      | panic => exact absurd rfl hp1
      | ok u => exact ⟨_, _, _, _, rfl, by simp, hp2, hsup⟩
      | err => exact ⟨_, _, _, _, rfl, by simp, hp2, hsup⟩
  obtain ⟨r, reply, fw', k', he, hnp, a, b⟩ := hk
  cases r with
  | panic => exact absurd rfl hnp
  | ok u => simp only [fwdStep, he]; exact ⟨rfl, a, b⟩
  | err => simp only [fwdStep, he]; exact ⟨rfl, a, b⟩

theorem exitMsg_stays {setup : FwdSetup} {s : FwdLife} {ev : FwdEvent} (hs : s.exitMsg = false) (h1 : ev ≠ .acceptError)
    (h2 : ∀ cred pf, ev = .connect cred pf → fwAccept setup.testMode setup.ids cred pf = .ok ()) : (lifeStep setup s ev).exitMsg = false := by
  unfold lifeStep
  split
  · split <;> exact hs
  · split
    · split
      · rename_i cred pf
        unfold FwdLife.connected
        rw [h2 _ _ rfl]
        simp only
        split <;> exact hs
      · exact absurd rfl h1
      · exact hs
    · exact hs

theorem healthy_life {setup : FwdSetup} {n : NftNames} (hn : ChainOf setup.conf n) {s : FwdLife} (h : Healthy n s.core) (hs : s.exitMsg = false)
    {ev : FwdEvent} (h1 : ∀ ok, ev ≠ .signal ok) (h3 : ∀ now env, ev = .maintain now env → env.rebuildOk = true)
    (h4 : ∀ l, ev = .reorder l → l.Perm s.core.fw.leases) : Healthy n (lifeStep setup s ev).core := by
  rw [lifeStep_core]
  cases ev with
  | connect cred pf => exact h
  | acceptError => exact h
  | sighup => exact h
  | signal ok => exact absurd rfl (h1 ok)
  | foreign k => exact ⟨h.run, h.up, h.supp⟩
  | reorder l => exact ⟨h.run, h.up, fun e he => h.supp e ((h4 l rfl).mem_iff.1 he)⟩
  | exitRecv ok =>
    simp only [FwdLife.opOf]
    rw [if_neg (by rw [hs, h.run]; simp)]
    exact h
  | maintain now env => exact healthy_maintain hn h now (h3 now env rfl)
  | message id rx now ok =>
    simp only [FwdLife.opOf]
    split
    · exact healthy_request hn h rx now ok
    · exact h

theorem fwAccept_isLetmeind {passwd group : Option Str} {ids : UInt32 × UInt32} (hids : readEtcPasswd false passwd group = .ok ids) {cred : Option Cred}
    {pf : Option Str} : fwAccept false ids cred pf = .ok () ↔ IsLetmeind passwd group pf cred := by
  have := C26_served_iff passwd group pf cred
  rw [hids, R.bind_ok] at this
  exact this

/-- **C91**. letmeinfwd, once started, keeps running and serving whatever else happens: messages, failed additions and deletions of rules, hang-ups,
other programs that change any rules, also its own ones, at any time. Only a signal, a failure to accept, a connection from somebody who is not
letmeind, or a failing rebuild of the chain can be the end. -/
theorem C91_keeps_running {passwd group : Option Str} {conf : Config} {k0 k1 : Kernel} {nftOk : Bool} {limit : Nat}
    {listener : UInt32 × UInt32 → R UnixListener} {setup : FwdSetup} {s0 : FwdLife}
    (h0 : lifeStart false passwd group conf k0 nftOk limit listener = (k1, .ok (setup, s0))) (evs : List FwdEvent)
    (hr : OnlyReorders setup s0 evs) (hno : ∀ ev ∈ evs, ¬ Reason passwd group ev) :
    (lifeRun setup s0 evs).core.phase = .running := by
  obtain ⟨rfl, htest, hids, -, -, hexit, -, hstart, -⟩ := lifeStart_ok h0
  obtain ⟨hp, n, hn, hi⟩ := fwdStart_inv hstart
  have hh : Healthy n s0.core := ⟨hp, (inv_running hi hp).2.1, (inv_running hi hp).1.supp⟩
  clear h0 hstart hp hi
  induction evs generalizing s0 with
  | nil => exact hh.run
  | cons ev rest ih =>
    have hno1 := hno ev (by simp)
    refine ih (s0 := lifeStep setup s0 ev) hr.2 (fun e he => hno e (by simp [he])) (exitMsg_stays hexit ?_ ?_)
      (healthy_life hn hh hexit ?_ ?_ hr.1)
    · rintro rfl; exact hno1 trivial
    · rintro cred pf rfl
      rw [htest]
      exact (fwAccept_isLetmeind hids).2 (Classical.not_not.1 hno1)
    · rintro ok rfl; exact hno1 trivial
    · rintro now env rfl
      simpa [Reason] using hno1

/-- **C91** (accepting). With a limit of one or more connections it also keeps accepting. -/
theorem C91_keeps_accepting {passwd group : Option Str} {conf : Config} {k0 k1 : Kernel} {nftOk : Bool} {limit : Nat} (hl : 1 ≤ limit)
    {listener : UInt32 × UInt32 → R UnixListener} {setup : FwdSetup} {s0 : FwdLife}
    (h0 : lifeStart false passwd group conf k0 nftOk limit listener = (k1, .ok (setup, s0))) (evs : List FwdEvent)
    (hno : ∀ ev ∈ evs, ¬ Reason passwd group ev) :
    (lifeRun setup s0 evs).accept = .accepting := by
  obtain ⟨rfl, htest, hids, -, hacc, -, hper, -, -⟩ := lifeStart_ok h0
  clear h0
  induction evs generalizing s0 with
  | nil => exact hacc
  | cons ev rest ih =>
    have hno1 := hno ev (by simp)
    have key : (lifeStep setup s0 ev).accept = .accepting ∧ (lifeStep setup s0 ev).permits = limit := by
      unfold lifeStep
      split
      · split <;> exact ⟨hacc, hper⟩
      · split
        · split
          · rename_i cred pf
            unfold FwdLife.connected
            rw [htest, (fwAccept_isLetmeind hids).2 (Classical.not_not.1 hno1)]
            obtain ⟨j, hj⟩ : ∃ j, limit = j + 1 := ⟨limit - 1, by omega⟩
            simp only [hper, hj, semAcquire, semRelease]
            exact ⟨hacc, trivial⟩
          · exact absurd trivial hno1
          · exact ⟨hacc, hper⟩
        · exact ⟨hacc, hper⟩
    exact ih (fun e he => hno e (by simp [he])) key.1 key.2

/-- **C91** (told to stop). After a signal nothing is running any more, and the same once the main task has read the message of a failed accept. -/
theorem C91_stops {passwd group : Option Str} {conf : Config} {k0 k1 : Kernel} {nftOk : Bool} {limit : Nat}
    {listener : UInt32 × UInt32 → R UnixListener} {setup : FwdSetup} {s0 : FwdLife}
    (h0 : lifeStart false passwd group conf k0 nftOk limit listener = (k1, .ok (setup, s0))) (evs : List FwdEvent) (ok : Bool) :
    (lifeRun setup s0 (evs ++ [.signal ok])).core.phase = .stopped ∧
    ((lifeRun setup s0 evs).accept = .accepting → (lifeRun setup s0 (evs ++ [.acceptError, .exitRecv ok])).core.phase = .stopped) ∧
    ((lifeRun setup s0 evs).core.phase = .stopping → (lifeRun setup s0 (evs ++ [.exitRecv ok])).core.phase = .stopped) := by
  obtain ⟨rfl, -, -, -, -, -, -, hstart, -⟩ := lifeStart_ok h0
  have hcr : ∀ evs, (lifeRun setup s0 evs).core.phase ≠ .crashed := fun evs => by
    rw [lifeRun_core]; exact C49_no_crash setup.conf k0 nftOk s0.core hstart _
  have hterm : ∀ s : FwdState, s.phase ≠ .crashed → (fwdStep setup.conf s (.terminate ok)).2.phase ≠ .crashed →
      (fwdStep setup.conf s (.terminate ok)).2.phase = .stopped := by
    intro s h1 h2
    unfold fwdStep at h2 ⊢
    cases hp : s.phase with
    | crashed => exact absurd hp h1
    | stopped => simp only [hp]
    | running =>
      rw [hp] at h2
      simp only at h2 ⊢
      split
      · rename_i he; rw [he] at h2; exact absurd rfl h2
      · rfl
    | stopping =>
      rw [hp] at h2
      simp only at h2 ⊢
      split
      · rename_i he; rw [he] at h2; exact absurd rfl h2
      · rfl
  have h1 := hcr evs
  refine ⟨?_, fun ha => ?_, fun ha => ?_⟩
  · have h2 := hcr (evs ++ [.signal ok])
    rw [lifeRun_append] at h2 ⊢
    simp only [lifeRun, lifeStep_core] at h2 ⊢
    exact hterm _ h1 h2
  · have h2 := hcr (evs ++ [.acceptError, .exitRecv ok])
    rw [lifeRun_append] at h2 ⊢
    generalize lifeRun setup s0 evs = s at *
    simp only [lifeRun] at h2 ⊢
    by_cases hal : s.core.phase.alive = true
    · have e1 : lifeStep setup s .acceptError = { s with accept := .ended, exitMsg := true } := by
        simp [lifeStep, FwdLife.opOf, hal, ha]
      rw [e1, lifeStep_core] at h2 ⊢
      simp only [FwdLife.opOf, true_or, if_true] at h2 ⊢
      exact hterm _ h1 h2
    · have hst : s.core.phase = .stopped := by
        cases hp : s.core.phase <;> simp_all [FwdPhase.alive]
      rw [lifeStep_core] at h2 ⊢
      rw [lifeStep_core]
      rw [lifeStep_core] at h2
      have hc : (fwdRun setup.conf s.core (s.opOf .acceptError).toList).2 = s.core := rfl
      rw [hc] at h2 ⊢
      simp only [FwdLife.opOf] at h2 ⊢
      split
      · rename_i hc2
        rw [if_pos hc2] at h2
        exact hterm _ h1 h2
      · exact hst
  · have h2 := hcr (evs ++ [.exitRecv ok])
    rw [lifeRun_append] at h2 ⊢
    generalize lifeRun setup s0 evs = s at *
    simp only [lifeRun, lifeStep_core] at h2 ⊢
    simp only [FwdLife.opOf, ha, or_true, if_true] at h2 ⊢
    exact hterm _ h1 h2

/-! ## C46: exactly which sockets -/

theorem classifyFd_kind (feat : SystemdFeatures) (f : PassedFd) (s : SystemdSocket) : classifyFd feat f = .ok s ↔ KindOf feat f s := by
  obtain ⟨fd, i, t, a⟩ := f
  obtain ⟨u, tc, ux⟩ := feat
  cases s <;> simp only [KindOf, IsInet, classifyFd, isUdpSocket, isTcpSocket, isUnixSocket] <;>
    rcases i with _ | _ <;> rcases u with _ | _ <;> rcases tc with _ | _ <;> rcases ux with _ | _ <;>
    rcases t with _ | _ | _ | _ <;> rcases a with _ | _ | _ | _ | _ <;> simp <;> exact eq_comm

theorem classifyFd_total (feat : SystemdFeatures) (f : PassedFd) : classifyFd feat f ≠ .panic := by
  unfold classifyFd
  repeat' split
  all_goals simp

theorem systemdSockets_kinds (feat : SystemdFeatures) (fds : List PassedFd) (ss : List SystemdSocket) :
    systemdSockets feat fds = .ok ss ↔ Pointwise (KindOf feat) fds ss := by
  induction fds generalizing ss with
  | nil =>
    constructor
    · intro h; simp only [systemdSockets] at h; injection h with h; subst h; exact .nil
    · intro h; cases h; rfl
  | cons f rest ih =>
    constructor
    · intro h
      simp only [systemdSockets] at h
      obtain ⟨s, h1, h⟩ := R.bind_eq_ok.1 h
      obtain ⟨l, h2, h⟩ := R.bind_eq_ok.1 h
      injection h with h
      subst h
      exact .cons ((classifyFd_kind _ _ _).1 h1) ((ih l).1 h2)
    · intro h
      cases h with
      | cons h1 h2 =>
        simp only [systemdSockets]
        rw [(classifyFd_kind _ _ _).2 h1, R.bind_ok, (ih _).2 h2, R.bind_ok]

/-- **C46** (exactly). With the descriptors `fds` passed, the sockets are `ss` if and only if they are the descriptors in order, each one of a
kind that the program was built for; a descriptor of another kind stops the start-up, without a crash. Without systemd there are none. -/
theorem C46_passed_iff (feat : SystemdFeatures) {env : SystemdEnv} {fds : List PassedFd} (hf : env.fds = .ok fds) (ss : List SystemdSocket) :
    (SystemdSocket.getAll feat env = .ok ss ↔ (env.booted = true ∧ Pointwise (KindOf feat) fds ss) ∨ (env.booted = false ∧ ss = [])) ∧
    SystemdSocket.getAll feat env ≠ .panic := by
  have hnp : ∀ l, systemdSockets feat l ≠ .panic := by
    intro l
    induction l with
    | nil => simp [systemdSockets]
    | cons f rest ih =>
      simp only [systemdSockets]
      exact R.bind_not_panic (classifyFd_total _ _) fun _ _ => R.bind_not_panic ih fun _ _ => by simp
  unfold SystemdSocket.getAll
  cases hb : env.booted with
  | true =>
    simp only [if_true]
    rw [hf, R.bind_ok]
    exact ⟨by rw [systemdSockets_kinds]; simp, hnp _⟩
  | false => exact ⟨by simp [eq_comm], by simp⟩

/-- An IPv6 stream socket and an IPv4 datagram socket for letmeind; a Unix socket is none for it. -/
example : SystemdSocket.getAll ⟨true, true, false⟩ ⟨true, .ok [⟨3, true, some .stream, some .inet6⟩, ⟨4, true, some .dgram, some .inet⟩]⟩ =
      .ok [.Tcp 3, .Udp 4] ∧
    SystemdSocket.getAll ⟨true, true, false⟩ ⟨true, .ok [⟨3, true, some .stream, some .unix⟩]⟩ = .err ∧
    SystemdSocket.getAll ⟨false, false, true⟩ ⟨true, .ok [⟨3, true, some .stream, some .unix⟩]⟩ = .ok [.Unix 3] := by decide

/-! ## C61: exactly when letmeinfwd listens -/

/-- **C61** (exactly). With systemd, letmeinfwd listens if and only if the first socket passed is a usable Unix socket and systemd can be
notified. On its own it listens if and only if an old socket can be removed, the new one bound and, outside test mode, its owner and mode set. -/
theorem C61_socket_iff (noSystemd testMode : Bool) (gid : UInt32) (sockets : R (List SystemdSocket)) (env : UnixEnv) :
    ((∃ l, fwServerNew noSystemd testMode gid sockets env = .ok l) ↔
      (noSystemd = false ∧ ∃ fd rest, sockets = .ok (.Unix fd :: rest) ∧ env.usable fd = true ∧ env.notifyOk = true) ∨
      (noSystemd = true ∧ (env.socketExists = true → env.removeOk = true) ∧ env.bindOk = true ∧ (testMode = false → env.ownerModeOk = true))) ∧
    (fwServerNew noSystemd testMode gid sockets env = .panic ↔ noSystemd = false ∧ sockets = .panic) := by
  cases noSystemd with
  | true =>
    obtain ⟨us, nf, se, ro, bo, om⟩ := env
    unfold fwServerNew fwBind
    constructor
    · cases se <;> cases ro <;> cases bo <;> cases om <;> cases testMode <;> simp
    · cases se <;> cases ro <;> cases bo <;> cases om <;> cases testMode <;> simp
  | false =>
    unfold fwServerNew
    cases sockets with
    | err => simp
    | panic => simp
    | ok ss =>
      cases ss with
      | nil => simp
      | cons s rest =>
        cases s with
        | Tcp fd => simp
        | Udp fd => simp
        | Unix fd =>
          cases hu : env.usable fd <;> cases hn : env.notifyOk <;> simp [hu, hn]

example : (∃ l, fwServerNew true false 996 .err ⟨fun _ => true, false, false, false, true, true⟩ = .ok l) ∧
    ¬ (∃ l, fwServerNew false false 996 (.ok [.Unix 3]) ⟨fun _ => true, false, true, true, true, true⟩ = .ok l) ∧
    ¬ (∃ l, fwServerNew true false 996 (.ok [.Unix 3]) ⟨fun _ => true, true, true, false, true, true⟩ = .ok l) :=
  ⟨(C61_socket_iff ..).1.2 (.inr (by decide)), fun h => by simpa using (C61_socket_iff ..).1.1 h, fun h => by simpa using (C61_socket_iff ..).1.1 h⟩

/-! ## C46: exactly when letmeind listens -/

theorem serverSockets_iff (port : ControlPort) (usable : Nat → Bool) (ss : List SystemdSocket) (l : Listening) :
    (∃ l', serverSockets port usable l ss = .ok l') ↔
      (∀ fd, SystemdSocket.Unix fd ∉ ss) ∧
      (if l.tcp.isSome then tcpFds ss = [] else port.tcp = true → AtMostOne usable (tcpFds ss)) ∧
      (if l.udp.isSome then udpFds ss = [] else port.udp = true → AtMostOne usable (udpFds ss)) := by
  induction ss generalizing l with
  | nil => simp [serverSockets, tcpFds, udpFds, AtMostOne]
  | cons s rest ih =>
    cases s with
    | Unix fd =>
      simp only [serverSockets]
      constructor
      · rintro ⟨_, h⟩; cases h
      · rintro ⟨h, _⟩; exact absurd (by simp) (h fd)
    | Tcp fd =>
      have e1 : tcpFds (.Tcp fd :: rest) = fd :: tcpFds rest := rfl
      have e2 : udpFds (.Tcp fd :: rest) = udpFds rest := rfl
      rw [e1, e2]
      simp only [serverSockets]
      by_cases h1 : l.tcp.isSome = true
      · simp [h1]
      · simp only [h1, if_false, Bool.false_eq_true]
        by_cases h2 : port.tcp = true
        · by_cases h3 : usable fd = true
          · simp only [h2, h3, Bool.not_true, Bool.false_eq_true, if_false, ih, Option.isSome_some, if_true, AtMostOne]
            have e : (tcpFds rest = [] ↔ ∃ fd_1, (fd = fd_1 ∧ tcpFds rest = []) ∧ usable fd_1 = true) :=
              ⟨fun h => ⟨fd, ⟨rfl, h⟩, h3⟩, fun ⟨_, h, _⟩ => h.2⟩
            simp
            exact fun _ _ => e
          · simp [h2, h3, AtMostOne]
        · simp [h2, h1, ih]
    | Udp fd =>
      have e1 : udpFds (.Udp fd :: rest) = fd :: udpFds rest := rfl
      have e2 : tcpFds (.Udp fd :: rest) = tcpFds rest := rfl
      rw [e1, e2]
      simp only [serverSockets]
      by_cases h1 : l.udp.isSome = true
      · simp [h1]
      · simp only [h1, if_false, Bool.false_eq_true]
        by_cases h2 : port.udp = true
        · by_cases h3 : usable fd = true
          · simp only [h2, h3, Bool.not_true, Bool.false_eq_true, if_false, ih, Option.isSome_some, if_true, AtMostOne]
            have e : (udpFds rest = [] ↔ ∃ fd_1, (fd = fd_1 ∧ udpFds rest = []) ∧ usable fd_1 = true) :=
              ⟨fun h => ⟨fd, ⟨rfl, h⟩, h3⟩, fun ⟨_, h, _⟩ => h.2⟩
            simp
            exact fun _ _ => e
          · simp [h2, h3, AtMostOne]
        · simp [h2, h1, ih]

theorem passesTcp_iff (ss : List SystemdSocket) : PassesTcp ss ↔ tcpFds ss ≠ [] := by
  induction ss with
  | nil => simp [PassesTcp, tcpFds]
  | cons s rest ih =>
    cases s with
    | Tcp fd => simp [PassesTcp, tcpFds]
    | Udp fd => simpa [PassesTcp, tcpFds] using ih
    | Unix fd => simpa [PassesTcp, tcpFds] using ih

theorem passesUdp_iff (ss : List SystemdSocket) : PassesUdp ss ↔ udpFds ss ≠ [] := by
  induction ss with
  | nil => simp [PassesUdp, udpFds]
  | cons s rest ih =>
    cases s with
    | Udp fd => simp [PassesUdp, udpFds]
    | Tcp fd => simpa [PassesUdp, udpFds] using ih
    | Unix fd => simpa [PassesUdp, udpFds] using ih

theorem bindBoth_iff (port : ControlPort) (b1 b2 : Bool) :
    (∃ l, (do
      let tcp ← bindIf port.tcp b1 port.port
      let udp ← bindIf port.udp b2 port.port
      R.ok ({ tcp, udp } : Listening)) = .ok l) ↔ (port.tcp = true → b1 = true) ∧ (port.udp = true → b2 = true) := by
  obtain ⟨p, t, u⟩ := port
  cases t <;> cases u <;> cases b1 <;> cases b2 <;> simp [bindIf, R.bind_ok, R.bind_err]

/-- **C46** (exactly). letmeind gets its sockets if and only if they are there. -/
theorem C46_starts_iff (port : ControlPort) (noSystemd : Bool) (sockets : R (List SystemdSocket)) (usable : Nat → Bool) (notifyOk b1 b2 : Bool) :
    (∃ l, serverNew port noSystemd sockets usable notifyOk b1 b2 = .ok l) ↔ CanListen port noSystemd sockets usable notifyOk b1 b2 := by
  unfold CanListen
  cases noSystemd with
  | true =>
    simp only [serverNew, serverFromSystemd, if_true, R.bind_ok, Option.isNone_none, Bool.and_self]
    rw [bindBoth_iff]
    simp
  | false =>
    cases sockets with
    | err => simp [serverNew, serverFromSystemd, R.bind_err]
    | panic => simp [serverNew, serverFromSystemd, R.bind_panic]
    | ok ss =>
      have hiff := serverSockets_iff port usable ss { tcp := none, udp := none }
      simp only [Option.isSome_none, Bool.false_eq_true, if_false] at hiff
      simp only [serverNew, serverFromSystemd, Bool.false_eq_true, if_false, R.bind_ok]
      cases hs : serverSockets port usable { tcp := none, udp := none } ss with
      | err =>
        rw [hs] at hiff
        simp only [R.bind_err]
        constructor
        · rintro ⟨_, h⟩; cases h
        · rintro (⟨h, _⟩ | ⟨_, ss', h1, h2, h3, h4, _⟩)
          · cases h
          · injection h1 with h1; subst h1
            obtain ⟨_, h⟩ := hiff.2 ⟨h2, h3, h4⟩
            cases h
      | panic =>
        rw [hs] at hiff
        simp only [R.bind_panic]
        constructor
        · rintro ⟨_, h⟩; cases h
        · rintro (⟨h, _⟩ | ⟨_, ss', h1, h2, h3, h4, _⟩)
          · cases h
          · injection h1 with h1; subst h1
            obtain ⟨_, h⟩ := hiff.2 ⟨h2, h3, h4⟩
            cases h
      | ok l0 =>
        obtain ⟨c1, c2, c3⟩ := hiff.1 ⟨l0, hs⟩
        obtain ⟨_, _, h5, h6, h7, h8⟩ := serverSockets_spec hs
        have kt : l0.tcp.isSome = true ↔ port.tcp = true ∧ PassesTcp ss := by
          refine ⟨fun hx => ?_, fun hx => h7 hx.2 hx.1⟩
          obtain ⟨x, hx⟩ := Option.isSome_iff_exists.1 hx
          rcases h5 x hx with h | ⟨hp, fd, _, hm⟩
          · cases h
          · exact ⟨hp, fd, hm⟩
        have ku : l0.udp.isSome = true ↔ port.udp = true ∧ PassesUdp ss := by
          refine ⟨fun hx => ?_, fun hx => h8 hx.2 hx.1⟩
          obtain ⟨x, hx⟩ := Option.isSome_iff_exists.1 hx
          rcases h6 x hx with h | ⟨hp, fd, _, hm⟩
          · cases h
          · exact ⟨hp, fd, hm⟩
        have right : ∀ P : List SystemdSocket → Prop, (False ∧ (port.tcp = true → b1 = true) ∧ (port.udp = true → b2 = true) ∨
            True ∧ ∃ ss', (R.ok ss : R (List SystemdSocket)) = .ok ss' ∧ (∀ fd, SystemdSocket.Unix fd ∉ ss') ∧
              (port.tcp = true → AtMostOne usable (tcpFds ss')) ∧ (port.udp = true → AtMostOne usable (udpFds ss')) ∧ P ss') ↔ P ss := by
          intro P
          constructor
          · rintro (⟨h, _⟩ | ⟨_, ss', h1, _, _, _, h⟩)
            · cases h
            · injection h1 with h1; subst h1; exact h
          · intro h
            exact .inr ⟨trivial, ss, rfl, c1, c2, c3, h⟩
        rw [right fun ss => (port.tcp = true ∧ PassesTcp ss ∨ port.udp = true ∧ PassesUdp ss → notifyOk = true) ∧
            (¬(port.tcp = true ∧ PassesTcp ss ∨ port.udp = true ∧ PassesUdp ss) → (port.tcp = true → b1 = true) ∧ (port.udp = true → b2 = true)),
          ← kt, ← ku]
        obtain ⟨t, u⟩ := l0
        cases t with
        | some t => cases notifyOk <;> simp [R.bind_err, R.bind_ok]
        | none =>
          cases u with
          | some u => cases notifyOk <;> simp [R.bind_err, R.bind_ok]
          | none =>
            have hb := bindBoth_iff port b1 b2
            simp only [Option.isSome_none, Bool.or_self, Bool.false_and, Bool.false_eq_true, if_false, R.bind_ok, Option.isNone_none, Bool.and_self, if_true]
            rw [hb]
            simp

/-- One TCP socket passed for TCP and UDP is enough, two are an error; without systemd both must be bound. -/
example : (∃ l, serverNew ⟨5800, true, true⟩ false (.ok [.Tcp 3]) (fun _ => true) true false false = .ok l) ∧
    ¬ (∃ l, serverNew ⟨5800, true, true⟩ false (.ok [.Tcp 3, .Tcp 4]) (fun _ => true) true true true = .ok l) ∧
    (∃ l, serverNew ⟨5800, false, true⟩ false (.ok [.Tcp 3, .Tcp 4]) (fun _ => true) true false true = .ok l) ∧
    ¬ (∃ l, serverNew ⟨5800, true, true⟩ true .err (fun _ => true) true true false = .ok l) :=
  ⟨⟨_, rfl⟩, fun ⟨_, h⟩ => (by cases h), ⟨_, rfl⟩, fun ⟨_, h⟩ => (by cases h)⟩

/-! ## C78: when the number is printed -/

/-- **C78** (when). With debugging on, the running daemon prints its number of rules exactly when that number may have changed: a request has
brought a new lease, maintenance has removed one and gone well, or it is shutting down and nft could be run. Without debugging it never does. -/
theorem C78_printed_iff {conf : Config} {n : NftNames} (hn : ChainOf conf n) {s : FwdState} (hp : s.phase = .running) (hd : s.fw.shutdown = false)
    (num : Nat) (op : FwdOp) :
    (∃ c, (countStep conf s num op).1 = some c) ↔ conf.debug = true ∧
      match op with
      | .request _ _ _ => ∃ e, (fwdStep conf s op).2.fw.leases = s.fw.leases ++ [e]
      | .maintain _ _ => (fwdStep conf s op).2.phase = .running ∧ (fwdStep conf s op).2.fw.leases ≠ s.fw.leases
      | .terminate ok => ok = true
      | _ => False := by
  obtain ⟨phase, fw, k⟩ := s
  simp only at hp hd
  subst hp
  have hprint : ∀ num l, (∃ c, printTotalRuleCount conf num l = some c) ↔ conf.debug = true := by
    intro num l
    unfold printTotalRuleCount
    cases conf.debug <;> simp
  cases op with
  | foreign k' => simp [countStep]
  | reorder l => simp [countStep]
  | terminate ok =>
    have hsh : fullRebuild conf { leases := [], shutdown := true } k ok = if ok then (.ok (), flushed n k) else (.err, k) := by
      unfold fullRebuild
      rw [rebuildCmds_shutdown hn rfl]
      cases ok <;> simp [applyBatch, applyCmds, applyCmd, flushed]
    simp only [countStep, hd, Bool.false_eq_true, if_false, hsh]
    cases ok with
    | true => simpa using hprint _ _
    | false => simp
  | request rx now ok =>
    simp only [countStep, fwdStep, handleMessage]
    cases hdec : fwdDecide conf rx with
    | silent => simp
    | nack => simp
    | openPort a p =>
      simp only
      by_cases hany : fw.leases.any (fun e => e.1 = (a, p)) = true
      · rw [if_pos hany]
        have ho : fw.openPort conf k now a p ok =
            (.ok (), { fw with leases := leaseUpdate fw.leases (a, p) (fun l => l.refreshTimeout conf now) }, k) := by
          unfold NftFirewall.openPort
          rw [if_neg (by simp [hd])]
          simp only [hany, if_true]
        simp only [ho]
        constructor
        · rintro ⟨_, h⟩; cases h
        · rintro ⟨_, e, h⟩
          have := congrArg List.length h
          simp [leaseUpdate] at this
      · rw [if_neg hany]
        have hlen : ∀ e : LeaseId × Lease, fw.leases ≠ fw.leases ++ [e] := fun e h => by
          have := congrArg List.length h; simp at this
        have ho : (∃ e k', fw.openPort conf k now a p ok = (.ok (), { fw with leases := fw.leases ++ [e] }, k')) ∨
            (∃ r k', fw.openPort conf k now a p ok = (r, fw, k') ∧ r ≠ .ok ()) := by
          unfold NftFirewall.openPort
          rw [if_neg (by simp [hd])]
          simp only
          rw [if_neg hany]
          cases Lease.new conf now a p with
          | err => exact .inr ⟨_, _, rfl, by simp⟩
          | panic => exact .inr ⟨_, _, rfl, by simp⟩
          | ok l =>
            simp only
            cases addLease conf l k ok with
            | mk r k' =>
              cases r with
              | ok u => exact .inl ⟨_, _, rfl⟩
              | err => exact .inr ⟨_, _, rfl, by simp⟩
              | panic => exact .inr ⟨_, _, rfl, by simp⟩
        rcases ho with ⟨e, k', ho⟩ | ⟨r, k', ho, hr⟩
        · simp only [ho]
          rw [hprint]
          exact ⟨fun h => ⟨h, e, rfl⟩, fun h => h.1⟩
        · simp only [ho]
          cases r with
          | ok u => exact absurd rfl hr
          | err =>
            simp only
            constructor
            · rintro ⟨_, h⟩; cases h
            · rintro ⟨_, e, h⟩; exact absurd h (hlen e)
          | panic =>
            simp only
            constructor
            · rintro ⟨_, h⟩; cases h
            · rintro ⟨_, e, h⟩; exact absurd h (hlen e)
  | maintain now env =>
    simp only [countStep, fwdStep, NftFirewall.maintain, hd, Bool.false_eq_true, if_false]
    by_cases hemp : (pruneAllLeaseTimeouts now fw.leases).2.isEmpty = true
    · have he : (pruneAllLeaseTimeouts now fw.leases).1 = fw.leases := by
        simp only [pruneAllLeaseTimeouts, List.isEmpty_iff, List.map_eq_nil_iff, List.filter_eq_nil_iff] at hemp
        simp only [pruneAllLeaseTimeouts, List.filter_eq_self]
        intro e hm
        have := hemp e hm
        simpa using this
      simp only [hemp, if_true, he]
      simp
    · have he : (pruneAllLeaseTimeouts now fw.leases).1 ≠ fw.leases := by
        intro h
        apply hemp
        simp only [pruneAllLeaseTimeouts, List.filter_eq_self] at h
        simp only [pruneAllLeaseTimeouts, List.isEmpty_iff, List.map_eq_nil_iff, List.filter_eq_nil_iff]
        intro e hm
        have := h e hm
        simpa using this
      simp only [hemp, if_false, Bool.false_eq_true]
      cases hrm : removeLeases conf (pruneAllLeaseTimeouts now fw.leases).2 k env with
      | mk r k' =>
        cases r with
        | ok u =>
          simp only
          rw [hprint]
          simp [he]
        | panic => exact absurd (by rw [hrm]) (removeLeases_not_panic conf (pruneAllLeaseTimeouts now fw.leases).2 k env)
        | err =>
          simp only
          cases hfr : fullRebuild conf { leases := (pruneAllLeaseTimeouts now fw.leases).1, shutdown := false } (env.beforeRebuild k') env.rebuildOk with
          | mk r2 k2 =>
            cases r2 with
            | ok u =>
              simp only
              rw [hprint]
              simp [he]
            | err => simp
            | panic => simp

/-- With debugging on a new lease is announced, a renewed one is not, and maintenance that removes nothing is silent. -/
example : debugStarted.phase = .running ∧ debugStarted.fw.shutdown = false ∧
    (countStep debugConf debugStarted 1 (countHistory.head (by decide))).1 = some 2 ∧
    (countStep debugConf (fwdRun debugConf debugStarted (countHistory.take 1)).2 1 (countHistory.head (by decide))).1 = none ∧
    (countStep debugConf debugStarted 1 (.maintain (1000 * second) calmEnv)).1 = none := by decide +kernel

/-! ## C91: a concrete case -/

/-- Requests, a full rebuild that works after a failed deletion, an empty ruleset left by another program, hang-ups. -/
def busyEvents : List FwdEvent :=
  lifeAsk ++ [.sighup, .foreign ⟨[], 0⟩, .maintain (1000 * second) { calmEnv with deleteOk := false }, .exitRecv true,
    .connect lifePeer (some "1234\n".toList), .message 1 .fail 0 false]

example : ∃ setup s0, lifeBegin = some (setup, s0) ∧ (lifeRun setup s0 busyEvents).core.phase = .running ∧
    (lifeRun setup s0 busyEvents).accept = .accepting := by
  obtain ⟨x, hx⟩ : ∃ x, lifeBegin = some x := Option.isSome_iff_exists.1 (by decide +kernel)
  refine ⟨x.1, x.2, hx, ?_⟩
  obtain ⟨k1, h0⟩ : ∃ k1, lifeStart false (some lifePasswd) (some lifeGroup) fwConf fwKernel true 8 (fun _ => .ok (.systemd 3)) = (k1, .ok (x.1, x.2)) := by
    unfold lifeBegin at hx
    split at hx
    · rename_i k y he
      injection hx with hx
      subst hx
      exact ⟨k, he⟩
    · cases hx
  have hpeer : IsLetmeind (some lifePasswd) (some lifeGroup) (some "1234\n".toList) lifePeer := by
    have hids : readEtcPasswd false (some lifePasswd) (some lifeGroup) = .ok (997, 996) := by decide +kernel
    exact (fwAccept_isLetmeind hids).1 (by decide +kernel)
  have hno : ∀ ev ∈ busyEvents, ¬ Reason (some lifePasswd) (some lifeGroup) ev := by
    intro ev he
    simp only [busyEvents, lifeAsk, List.cons_append, List.nil_append, List.mem_cons, List.not_mem_nil, or_false] at he
    rcases he with rfl | rfl | rfl | rfl | rfl | rfl | rfl | rfl
    all_goals simp only [Reason, calmEnv, not_false_eq_true, not_true_eq_false, Bool.true_eq_false]
    all_goals exact fun h => h hpeer
  refine ⟨C91_keeps_running h0 busyEvents ?_ hno, C91_keeps_accepting (by decide) h0 busyEvents hno⟩
  simp [OnlyReorders, busyEvents, lifeAsk]

end Letmein.Props
