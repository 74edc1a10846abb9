import Verif.Model.Daemon
import Verif.Props.FirewallMore
import Verif.Props.FwAccept
import Verif.Lemmas.ConfNum

/-!
# Properties C43, C46, C56–C60: listening, limits and termination of the daemons
-/

namespace Letmein.Spec

/-- Sockets of a protocol among those passed. -/
def PassesTcp (l : List SystemdSocket) : Prop := ∃ fd, SystemdSocket.Tcp fd ∈ l
/-- Sockets of a protocol among those passed. -/
def PassesUdp (l : List SystemdSocket) : Prop := ∃ fd, SystemdSocket.Udp fd ∈ l

/-- The listening socket is legitimate: one that systemd passed for this protocol, or one bound to the control port. -/
def LegitTcp (port : ControlPort) (noSystemd : Bool) (l : List SystemdSocket) : Listener → Prop
  | .systemd fd => noSystemd = false ∧ SystemdSocket.Tcp fd ∈ l
  | .bound p => p = port.port
/-- The same for UDP. -/
def LegitUdp (port : ControlPort) (noSystemd : Bool) (l : List SystemdSocket) : Listener → Prop
  | .systemd fd => noSystemd = false ∧ SystemdSocket.Udp fd ∈ l
  | .bound p => p = port.port

/-- What a descriptor is. -/
def IsInet (f : PassedFd) : Prop := f.isSocket = true ∧ (f.family = some .inet ∨ f.family = some .inet6)

/-- The peer with these credentials, arriving while the pid file has this content, is letmeind: see `C26_served_iff`. -/
def IsLetmeind (passwd group pidFile : Option Str) (cred : Option Cred) : Prop :=
  ∃ c pid p pw gr, cred = some c ∧ c.pid = some pid ∧ pidFile = some p ∧ PidText p pid ∧
    (passwd = some pw ∧ AccountId pw "letmeind".toList c.uid.toNat) ∧ (group = some gr ∧ AccountId gr "letmeind".toList c.gid.toNat)

/-- Other programs leave the configured chain alone; reordering the hash map keeps its entries. -/
def EventFair (n : NftNames) (s : FwdState) : FwdEvent → Prop
  | .foreign k => OwnUnchanged n s.kernel k
  | .reorder l => l.Perm s.fw.leases
  | .maintain _ env => (∀ k, OwnUnchanged n k (env.afterList k)) ∧ (∀ k, OwnUnchanged n k (env.beforeRebuild k))
  | _ => True

/-- Every event of the history is fair. -/
def LifeFair (setup : FwdSetup) (n : NftNames) : FwdLife → List FwdEvent → Prop
  | _, [] => True
  | s, ev :: rest => EventFair n s.core ev ∧ LifeFair setup n (lifeStep setup s ev) rest

/-- If the event makes the daemon terminate, its last call of nftables succeeds. -/
def FinalNftOk : FwdEvent → Prop
  | .signal ok | .exitRecv ok => ok = true
  | _ => True

end Letmein.Spec

namespace Letmein.Props

open Letmein Prog Spec

/-! ## C46: listening -/

theorem serverSockets_spec {port : ControlPort} {usable : Nat → Bool} {ss : List SystemdSocket} {l l' : Listening}
    (h : serverSockets port usable l ss = .ok l') :
    (∀ x, l.tcp = some x → l'.tcp = some x) ∧ (∀ x, l.udp = some x → l'.udp = some x) ∧
    (∀ x, l'.tcp = some x → l.tcp = some x ∨ (port.tcp = true ∧ ∃ fd, x = .systemd fd ∧ SystemdSocket.Tcp fd ∈ ss)) ∧
    (∀ x, l'.udp = some x → l.udp = some x ∨ (port.udp = true ∧ ∃ fd, x = .systemd fd ∧ SystemdSocket.Udp fd ∈ ss)) ∧
    (PassesTcp ss → port.tcp = true → l'.tcp.isSome = true) ∧ (PassesUdp ss → port.udp = true → l'.udp.isSome = true) := by
  induction ss generalizing l with
  | nil =>
    simp only [serverSockets, R.ok.injEq] at h
    subst h
    simp [PassesTcp, PassesUdp]
  | cons s ss ih =>
    cases s with
    | Tcp fd =>
      rw [serverSockets] at h
      split at h
      · cases h
      · rename_i hn
        have hn : l.tcp = none := by simpa using hn
        split at h
        · rename_i hc
          have hc : port.tcp = false := by simpa using hc
          obtain ⟨h1, h2, h3, h4, h5, h6⟩ := ih h
          refine ⟨h1, h2, fun x hx => ?_, fun x hx => ?_, fun _ hp => (by rw [hc] at hp; cases hp), ?_⟩
          · rcases h3 x hx with h | ⟨hp, _⟩
            · exact .inl h
            · rw [hc] at hp; cases hp
          · rcases h4 x hx with h | ⟨hp, fd', he, hm⟩
            · exact .inl h
            · exact .inr ⟨hp, fd', he, by simp [hm]⟩
          · rintro ⟨fd', hm⟩ hp
            exact h6 ⟨fd', by simpa using hm⟩ hp
        · rename_i hc
          have hc : port.tcp = true := by simpa using hc
          split at h
          · cases h
          · obtain ⟨h1, h2, h3, h4, h5, h6⟩ := ih h
            have ht := h1 _ rfl
            refine ⟨fun x hx => (by rw [hn] at hx; cases hx), h2, fun x hx => ?_, fun x hx => ?_, fun _ _ => by rw [ht]; rfl, ?_⟩
            · rw [ht] at hx
              injection hx with hx
              exact .inr ⟨hc, fd, hx.symm, by simp⟩
            · rcases h4 x hx with h | ⟨hp, fd', he, hm⟩
              · exact .inl h
              · exact .inr ⟨hp, fd', he, by simp [hm]⟩
            · rintro ⟨fd', hm⟩ hp
              exact h6 ⟨fd', by simpa using hm⟩ hp
    | Udp fd =>
      rw [serverSockets] at h
      split at h
      · cases h
      · rename_i hn
        have hn : l.udp = none := by simpa using hn
        split at h
        · rename_i hc
          have hc : port.udp = false := by simpa using hc
          obtain ⟨h1, h2, h3, h4, h5, h6⟩ := ih h
          refine ⟨h1, h2, fun x hx => ?_, fun x hx => ?_, ?_, fun _ hp => (by rw [hc] at hp; cases hp)⟩
          · rcases h3 x hx with h | ⟨hp, fd', he, hm⟩
            · exact .inl h
            · exact .inr ⟨hp, fd', he, by simp [hm]⟩
          · rcases h4 x hx with h | ⟨hp, _⟩
            · exact .inl h
            · rw [hc] at hp; cases hp
          · rintro ⟨fd', hm⟩ hp
            exact h5 ⟨fd', by simpa using hm⟩ hp
        · rename_i hc
          have hc : port.udp = true := by simpa using hc
          split at h
          · cases h
          · obtain ⟨h1, h2, h3, h4, h5, h6⟩ := ih h
            have ht := h2 _ rfl
            refine ⟨h1, fun x hx => (by rw [hn] at hx; cases hx), fun x hx => ?_, fun x hx => ?_, ?_, fun _ _ => by rw [ht]; rfl⟩
            · rcases h3 x hx with h | ⟨hp, fd', he, hm⟩
              · exact .inl h
              · exact .inr ⟨hp, fd', he, by simp [hm]⟩
            · rw [ht] at hx
              injection hx with hx
              exact .inr ⟨hc, fd, hx.symm, by simp⟩
            · rintro ⟨fd', hm⟩ hp
              exact h5 ⟨fd', by simpa using hm⟩ hp
    | Unix fd => rw [serverSockets] at h; cases h

theorem bindIf_ok {wanted ok : Bool} {p : UInt16} {o : Option Listener} (h : bindIf wanted ok p = .ok o) :
    (wanted = true ∧ o = some (.bound p)) ∨ (wanted = false ∧ o = none) := by
  unfold bindIf at h
  cases wanted <;> cases ok <;> simp at h <;> simp [h]

/-- The ways in which `Server::new` succeeds. -/
theorem serverNew_cases {port : ControlPort} {noSystemd : Bool} {sockets : R (List SystemdSocket)} {usable : Nat → Bool}
    {notifyOk b1 b2 : Bool} {l : Listening} (h : serverNew port noSystemd sockets usable notifyOk b1 b2 = .ok l) :
    (∃ ss, noSystemd = false ∧ sockets = .ok ss ∧ (l.tcp.isSome = true ∨ l.udp.isSome = true) ∧
      serverSockets port usable { tcp := none, udp := none } ss = .ok l) ∨
    ((noSystemd = true ∨ ∃ ss, sockets = .ok ss ∧ serverSockets port usable { tcp := none, udp := none } ss = .ok { tcp := none, udp := none }) ∧
      l = { tcp := if port.tcp then some (.bound port.port) else none, udp := if port.udp then some (.bound port.port) else none }) := by
  unfold serverNew at h
  rw [R.bind_eq_ok] at h
  obtain ⟨l0, h0, h⟩ := h
  have hl0 : (noSystemd = true ∧ l0 = { tcp := none, udp := none }) ∨ (noSystemd = false ∧ ∃ ss, sockets = .ok ss ∧
      serverSockets port usable { tcp := none, udp := none } ss = .ok l0) := by
    unfold serverFromSystemd at h0
    cases noSystemd with
    | true => simp at h0; exact .inl ⟨rfl, h0.symm⟩
    | false =>
      simp only [Bool.false_eq_true, if_false] at h0
      rw [R.bind_eq_ok] at h0
      obtain ⟨ss, hs, h0⟩ := h0
      rw [R.bind_eq_ok] at h0
      obtain ⟨l1, hl, h0⟩ := h0
      split at h0
      · cases h0
      · injection h0 with h0
        subst h0
        exact .inr ⟨rfl, ss, hs, hl⟩
  split at h
  · rename_i hn
    rw [R.bind_eq_ok] at h
    obtain ⟨t, ht, h⟩ := h
    rw [R.bind_eq_ok] at h
    obtain ⟨u, hu, h⟩ := h
    injection h with h
    subst h
    have he : l0 = { tcp := none, udp := none } := by
      obtain ⟨a, b⟩ := l0
      simp at hn
      simp [hn]
    right
    constructor
    · rcases hl0 with ⟨h1, _⟩ | ⟨_, ss, h1, h2⟩
      · exact .inl h1
      · rw [he] at h2; exact .inr ⟨ss, h1, h2⟩
    · rcases bindIf_ok ht with ⟨h1, h2⟩ | ⟨h1, h2⟩ <;> rcases bindIf_ok hu with ⟨h3, h4⟩ | ⟨h3, h4⟩ <;> simp [h1, h2, h3, h4]
  · rename_i hn
    injection h with h
    subst h
    left
    rcases hl0 with ⟨_, h1⟩ | ⟨h1, ss, h2, h3⟩
    · subst h1; simp at hn
    · refine ⟨ss, h1, h2, ?_, h3⟩
      obtain ⟨a, b⟩ := l0
      cases a <;> cases b <;> simp at hn ⊢

/-- C46: a protocol that is not configured is never served, whatever systemd passes; and every socket served is one that systemd passed for
that protocol, or one bound to the configured port. -/
theorem C46_only_configured {port : ControlPort} {noSystemd : Bool} {ss : List SystemdSocket} {usable : Nat → Bool}
    {notifyOk b1 b2 : Bool} {l : Listening} (h : serverNew port noSystemd (.ok ss) usable notifyOk b1 b2 = .ok l) :
    (∀ x, l.tcp = some x → port.tcp = true ∧ LegitTcp port noSystemd ss x) ∧
      (∀ x, l.udp = some x → port.udp = true ∧ LegitUdp port noSystemd ss x) := by
  rcases serverNew_cases h with ⟨ss', h1, h2, _, h3⟩ | ⟨_, rfl⟩
  · injection h2 with h2
    subst h2
    obtain ⟨_, _, h4, h5, _⟩ := serverSockets_spec h3
    constructor
    · intro x hx
      rcases h4 x hx with h | ⟨hp, fd, rfl, hm⟩
      · cases h
      · exact ⟨hp, h1, hm⟩
    · intro x hx
      rcases h5 x hx with h | ⟨hp, fd, rfl, hm⟩
      · cases h
      · exact ⟨hp, h1, hm⟩
  · constructor
    · intro x hx
      by_cases hp : port.tcp = true
      · simp [hp] at hx; subst hx; exact ⟨hp, rfl⟩
      · simp [hp] at hx
    · intro x hx
      by_cases hp : port.udp = true
      · simp [hp] at hx; subst hx; exact ⟨hp, rfl⟩
      · simp [hp] at hx

/-- C46 (partial: only if systemd passes sockets for all configured protocols or for none): exactly the configured protocols are served. -/
theorem C46_exactly_configured_partial {port : ControlPort} {noSystemd : Bool} {ss : List SystemdSocket} {usable : Nat → Bool}
    {notifyOk b1 b2 : Bool} {l : Listening} (h : serverNew port noSystemd (.ok ss) usable notifyOk b1 b2 = .ok l)
    (hall : noSystemd = true ∨ ((port.tcp = true → PassesTcp ss) ∧ (port.udp = true → PassesUdp ss)) ∨
      ((port.tcp = true → ¬ PassesTcp ss) ∧ (port.udp = true → ¬ PassesUdp ss))) :
    (l.tcp.isSome = true ↔ port.tcp = true) ∧ (l.udp.isSome = true ↔ port.udp = true) := by
  rcases serverNew_cases h with ⟨ss', h1, h2, h3, h4⟩ | ⟨_, rfl⟩
  · injection h2 with h2
    subst h2
    obtain ⟨_, _, h5, h6, h7, h8⟩ := serverSockets_spec h4
    have ht : l.tcp.isSome = true → port.tcp = true ∧ PassesTcp ss := by
      intro hs
      obtain ⟨x, hx⟩ := Option.isSome_iff_exists.1 hs
      rcases h5 x hx with h | ⟨hp, fd, _, hm⟩
      · cases h
      · exact ⟨hp, fd, hm⟩
    have hu : l.udp.isSome = true → port.udp = true ∧ PassesUdp ss := by
      intro hs
      obtain ⟨x, hx⟩ := Option.isSome_iff_exists.1 hs
      rcases h6 x hx with h | ⟨hp, fd, _, hm⟩
      · cases h
      · exact ⟨hp, fd, hm⟩
    rcases hall with h | ⟨ha, hb⟩ | ⟨ha, hb⟩
    · rw [h] at h1; cases h1
    · exact ⟨⟨fun h => (ht h).1, fun h => h7 (ha h) h⟩, ⟨fun h => (hu h).1, fun h => h8 (hb h) h⟩⟩
    · exfalso
      rcases h3 with h3 | h3
      · exact ha (ht h3).1 (ht h3).2
      · exact hb (hu h3).1 (hu h3).2
  · constructor
    · cases port.tcp <;> simp
    · cases port.udp <;> simp

/-- C46: the server never runs without serving anything. -/
theorem C46_serves_something {port : ControlPort} (hp : port.tcp = true ∨ port.udp = true) {noSystemd : Bool} {sockets : R (List SystemdSocket)}
    {usable : Nat → Bool} {notifyOk b1 b2 : Bool} {l : Listening} (h : serverNew port noSystemd sockets usable notifyOk b1 b2 = .ok l) :
    l.tcp.isSome = true ∨ l.udp.isSome = true := by
  rcases serverNew_cases h with ⟨ss', _, _, h3, _⟩ | ⟨_, rfl⟩
  · exact h3
  · rcases hp with hp | hp <;> simp [hp]

/-- C46 is false: with TCP and UDP configured and only a TCP socket from systemd, UDP is not served, and start-up succeeds. -/
theorem C46_negation : ∃ port ss l, serverNew port false (.ok ss) (fun _ => true) true true true = .ok l ∧ port.udp = true ∧ l.udp = none :=
  ⟨{ port := 5800, tcp := true, udp := true }, [.Tcp 3], { tcp := some (.systemd 3), udp := none }, by decide, rfl, rfl⟩

/-- C46: what counts as a TCP or UDP socket from systemd; anything else stops the start-up. -/
theorem C46_passed_sockets {feat : SystemdFeatures} {env : SystemdEnv} {fds : List PassedFd} (hb : env.booted = true) (hf : env.fds = .ok fds)
    {ss : List SystemdSocket} (h : SystemdSocket.getAll feat env = .ok ss) :
    ss.length = fds.length ∧
    (∀ fd, SystemdSocket.Tcp fd ∈ ss → ∃ f ∈ fds, f.fd = fd ∧ IsInet f ∧ f.sockType = some .stream) ∧
    (∀ fd, SystemdSocket.Udp fd ∈ ss → ∃ f ∈ fds, f.fd = fd ∧ IsInet f ∧ f.sockType = some .dgram) ∧
    (∀ fd, SystemdSocket.Unix fd ∈ ss → ∃ f ∈ fds, f.fd = fd ∧ f.isSocket = true ∧ f.family = some .unix ∧ f.sockType = some .stream) := by
  unfold SystemdSocket.getAll at h
  rw [if_pos hb, hf, R.bind_ok] at h
  clear hf hb
  induction fds generalizing ss with
  | nil => simp only [systemdSockets, R.ok.injEq] at h; subst h; simp
  | cons f fds ih =>
    rw [systemdSockets, R.bind_eq_ok] at h
    obtain ⟨s, hs, h⟩ := h
    unfold classifyFd at hs
    rw [R.bind_eq_ok] at h
    obtain ⟨l, hl, h⟩ := h
    injection h with h
    subst h
    obtain ⟨h1, h2, h3, h4⟩ := ih hl
    have lift : ∀ {P : PassedFd → Prop}, (∃ g ∈ fds, P g) → ∃ g ∈ f :: fds, P g := fun ⟨g, hg, hp⟩ => ⟨g, by simp [hg], hp⟩
    refine ⟨by simp [h1], ?_, ?_, ?_⟩
    · intro fd hm
      rcases List.mem_cons.1 hm with rfl | hm
      · refine ⟨f, by simp, ?_⟩
        split at hs
        · cases hs
        · split at hs
          · rename_i hx
            injection hs with hs
            injection hs with hs
            simp [isTcpSocket] at hx
            exact ⟨hs, ⟨hx.2.1.1, hx.2.2⟩, hx.2.1.2⟩
          · split at hs <;> cases hs
      · exact lift (h2 fd hm)
    · intro fd hm
      rcases List.mem_cons.1 hm with rfl | hm
      · refine ⟨f, by simp, ?_⟩
        split at hs
        · rename_i hx
          injection hs with hs
          injection hs with hs
          simp [isUdpSocket] at hx
          exact ⟨hs, ⟨hx.2.1.1, hx.2.2⟩, hx.2.1.2⟩
        · split at hs
          · cases hs
          · split at hs <;> cases hs
      · exact lift (h3 fd hm)
    · intro fd hm
      rcases List.mem_cons.1 hm with rfl | hm
      · refine ⟨f, by simp, ?_⟩
        split at hs
        · cases hs
        · split at hs
          · cases hs
          · split at hs
            · rename_i hx
              injection hs with hs
              injection hs with hs
              simp [isUnixSocket] at hx
              exact ⟨hs, hx.2.1.1, hx.2.2, hx.2.1.2⟩
            · cases hs
      · exact lift (h4 fd hm)

example : SystemdSocket.getAll ⟨true, true, false⟩ ⟨true, .ok [⟨3, true, some .stream, some .inet6⟩, ⟨4, true, some .dgram, some .inet⟩]⟩ =
      .ok [.Tcp 3, .Udp 4] ∧
    SystemdSocket.getAll ⟨true, true, false⟩ ⟨true, .ok [⟨3, true, some .stream, some .unix⟩]⟩ = .err ∧
    serverNew ⟨5800, true, true⟩ false (.ok [.Tcp 3, .Udp 4]) (fun _ => true) true false false = .ok ⟨some (.systemd 3), some (.systemd 4)⟩ ∧
    serverNew ⟨5800, true, false⟩ false (.ok [.Udp 4]) (fun _ => true) true true true = .ok ⟨some (.bound 5800), none⟩ ∧
    serverNew ⟨5800, true, false⟩ false (.ok [.Tcp 3, .Tcp 4]) (fun _ => true) true true true = .err := by decide

/-! ## C43: the connection limit -/

/-- All states of letmeind. -/
inductive LmReach (limit fdMax : Nat) : LmState → Prop
  | start {s : LmState} : lmStart limit = .ok s → LmReach limit fdMax s
  | step {s : LmState} (op : LmOp) : LmReach limit fdMax s → LmReach limit fdMax (lmStep fdMax s op)

theorem lmReach_run {limit fdMax : Nat} {s : LmState} (h : LmReach limit fdMax s) (ops : List LmOp) : LmReach limit fdMax (lmRun fdMax s ops) := by
  induction ops generalizing s with
  | nil => exact h
  | cons op ops ih => exact ih (.step op h)

theorem lmRun_append (fdMax : Nat) (s : LmState) (a b : List LmOp) : lmRun fdMax s (a ++ b) = lmRun fdMax (lmRun fdMax s a) b := by
  induction a generalizing s with
  | nil => rfl
  | cons op a ih => exact ih _

theorem lmReach_permits {limit fdMax : Nat} {s : LmState} (h : LmReach limit fdMax s) :
    s.permits = limit ∧ (0 < limit → ∀ c, s.accept ≠ .acquiring c) ∧ (limit = 0 → s.sessions = []) := by
  induction h with
  | start h =>
    unfold lmStart at h
    split at h
    · cases h
    · injection h with h; subst h; simp
  | @step s op _ ih =>
    obtain ⟨h1, h2, h3⟩ := ih
    have hacc : ∀ tcp, (s.accepted tcp).permits = limit ∧ (0 < limit → s.accept = .accepting → ∀ c, (s.accepted tcp).accept ≠ .acquiring c) ∧
        (limit = 0 → (s.accepted tcp).sessions = []) := by
      intro tcp
      unfold LmState.accepted
      cases limit with
      | zero => simp [h1, semAcquire, h3]
      | succ n => simp [h1, semAcquire, semRelease]; intro h; simp [h]
    unfold lmStep
    split
    · exact ⟨h1, h2, h3⟩
    · exact ⟨h1, h2, h3⟩
    · cases op with
      | connectTcp =>
        simp only
        split
        · rename_i ha
          split
          · exact ⟨(hacc _).1, fun hl => (hacc _).2.1 hl ha, (hacc _).2.2⟩
          · exact ⟨h1, fun _ c => by simp [LmState.acceptFailed], h3⟩
        · exact ⟨h1, h2, h3⟩
      | connectUdp =>
        simp only
        split
        · rename_i ha
          exact ⟨(hacc _).1, fun hl => (hacc _).2.1 hl ha, (hacc _).2.2⟩
        · exact ⟨h1, h2, h3⟩
      | acceptError =>
        simp only
        split
        · exact ⟨h1, fun _ c => by simp [LmState.acceptFailed], h3⟩
        · exact ⟨h1, h2, h3⟩
      | sessionDone id => exact ⟨h1, h2, fun h => by simp [h3 h]⟩
      | exitRecv => simp only; split <;> exact ⟨h1, h2, h3⟩
      | _ => exact ⟨h1, h2, h3⟩

/-- C43 is false, the reason: in all reachable states all permits are available, however many sessions run. Only the limit zero has an effect:
then nobody is ever served. -/
theorem C43_permits_unused {limit fdMax : Nat} {s : LmState} (h : LmReach limit fdMax s) :
    s.permits = limit ∧ (0 < limit → ∀ c, s.accept ≠ .acquiring c) ∧ (limit = 0 → s.sessions = []) := lmReach_permits h

theorem lm_connects (fdMax n : Nat) : ∀ {s : LmState}, s.phase = .running → s.accept = .accepting → 0 < s.permits → s.fds + n ≤ fdMax →
    (lmRun fdMax s (List.replicate n .connectTcp)).phase = .running ∧ (lmRun fdMax s (List.replicate n .connectTcp)).accept = .accepting ∧
      (lmRun fdMax s (List.replicate n .connectTcp)).permits = s.permits ∧
      (lmRun fdMax s (List.replicate n .connectTcp)).fds = s.fds + n ∧
      (lmRun fdMax s (List.replicate n .connectTcp)).sessions.length = s.sessions.length + n := by
  induction n with
  | zero => intro s h1 h2 h3 h4; exact ⟨h1, h2, rfl, rfl, rfl⟩
  | succ n ih =>
    intro s h1 h2 h3 h4
    have hstep : lmStep fdMax s .connectTcp =
        { s with nextId := s.nextId + 1, permits := s.permits, sessions := s.sessions ++ [⟨s.nextId, true⟩] } := by
      unfold lmStep
      rw [h1]
      simp only [h2]
      rw [if_pos (by omega)]
      unfold LmState.accepted
      obtain ⟨p, hp⟩ : ∃ p, s.permits = p + 1 := ⟨s.permits - 1, by omega⟩
      simp [hp, semAcquire, semRelease, h1, h2]
    have hf : (lmStep fdMax s .connectTcp).fds = s.fds + 1 := by
      rw [hstep]
      simp [LmState.fds, LmState.unclosed, h2, List.filter_append]
    rw [List.replicate_succ, lmRun]
    have := ih (s := lmStep fdMax s .connectTcp) (by rw [hstep]; exact h1) (by rw [hstep]; exact h2) (by rw [hstep]; exact h3) (by rw [hf]; omega)
    obtain ⟨h5, h6, h7, h8, h9⟩ := this
    refine ⟨h5, h6, by rw [h7, hstep], by rw [h8, hf]; omega, ?_⟩
    rw [h9, hstep]
    simp
    omega

/-- C43 is false: for every limit that lets anybody in, any number of connections is served at the same time. -/
theorem C43_negation {limit : Nat} (h1 : 0 < limit) (h2 : limit ≤ MAX_PERMITS) (n fdMax : Nat) (h3 : n ≤ fdMax) :
    ∃ s ops, lmStart limit = .ok s ∧ (lmRun fdMax s ops).phase = .running ∧ (lmRun fdMax s ops).sessions.length = n := by
  refine ⟨⟨.running, .accepting, limit, [], 0, false⟩, List.replicate n .connectTcp, ?_, ?_⟩
  · unfold lmStart
    rw [if_neg (by omega)]
  · obtain ⟨h4, _, _, _, h5⟩ := lm_connects fdMax n (s := ⟨.running, .accepting, limit, [], 0, false⟩) rfl rfl h1
      (by simp [LmState.fds, LmState.unclosed]; exact h3)
    exact ⟨h4, by rw [h5]; simp⟩

/-- C43 (partial): the number of TCP sessions is bounded by the number of file descriptors, not by the option. -/
theorem C43_descriptors_partial {limit fdMax : Nat} {s : LmState} (h : LmReach limit fdMax s) :
    (s.sessions.filter (·.tcp)).length ≤ fdMax := by
  have : s.fds ≤ fdMax := by
    induction h with
    | start h =>
      unfold lmStart at h
      split at h
      · cases h
      · injection h with h; subst h; simp [LmState.fds, LmState.unclosed]
    | @step s op _ ih =>
      have hacc : ∀ tcp, s.accept = .accepting → (s.accepted tcp).fds ≤ s.fds + (if tcp then 1 else 0) := by
        intro tcp ha
        unfold LmState.accepted
        cases hp : semAcquire s.permits with
        | none => simp [hp, LmState.fds, LmState.unclosed, ha, List.filter_append]; cases tcp <;> simp
        | some p => simp [hp, LmState.fds, LmState.unclosed, ha, List.filter_append]; cases tcp <;> simp
      have hfail : s.accept = .accepting → s.acceptFailed.fds = s.fds := by
        intro ha; simp [LmState.acceptFailed, LmState.fds, LmState.unclosed, ha]
      unfold lmStep
      split
      · exact ih
      · exact ih
      · cases op with
        | connectTcp =>
          simp only
          split
          · rename_i ha
            split
            · have := hacc true ha; simp at this; omega
            · rw [hfail ha]; exact ih
          · exact ih
        | connectUdp =>
          simp only
          split
          · rename_i ha
            have := hacc false ha; simp at this; omega
          · exact ih
        | acceptError =>
          simp only
          split
          · rename_i ha; rw [hfail ha]; exact ih
          · exact ih
        | sessionDone id =>
          refine Nat.le_trans ?_ ih
          unfold LmState.fds LmState.unclosed
          simp only [List.filter_append, List.length_append]
          refine Nat.add_le_add_right ?_ _
          exact ((List.filter_sublist).filter _).length_le
        | exitRecv => simp only; split <;> exact ih
        | _ => exact ih
  refine Nat.le_trans ?_ this
  unfold LmState.fds LmState.unclosed
  rw [List.filter_append, List.length_append]
  omega

/-- Limit 2: three sessions at once. -/
example : (lmRun 1000 ⟨.running, .accepting, 2, [], 0, false⟩ [.connectTcp, .connectUdp, .connectTcp]).sessions = [⟨0, true⟩, ⟨1, false⟩, ⟨2, true⟩] := by
  decide
/-- Limit 0: the accept task waits for ever. -/
example : (lmRun 1000 ⟨.running, .accepting, 0, [], 0, false⟩ [.connectTcp, .connectUdp]).sessions = [] := by decide

/-! ## C56: peers cannot terminate letmeind -/

/-- C56 is false: connections that are opened and kept until no file descriptor is left terminate the server. No message, let alone
authentication, is needed. -/
theorem C56_negation {limit : Nat} (h1 : 0 < limit) (h2 : limit ≤ MAX_PERMITS) (fdMax : Nat) :
    ∃ s, lmStart limit = .ok s ∧ (lmRun fdMax s (List.replicate (fdMax + 1) .connectTcp ++ [.exitRecv])).phase ≠ .running := by
  refine ⟨⟨.running, .accepting, limit, [], 0, false⟩, ?_, ?_⟩
  · unfold lmStart
    rw [if_neg (by omega)]
  · obtain ⟨h4, h5, _, h6, _⟩ := lm_connects fdMax fdMax (s := ⟨.running, .accepting, limit, [], 0, false⟩) rfl rfl h1
      (by simp [LmState.fds, LmState.unclosed])
    rw [List.replicate_succ', List.append_assoc, lmRun_append]
    generalize lmRun fdMax _ (List.replicate fdMax LmOp.connectTcp) = s at *
    have h6 : s.fds = fdMax := by rw [h6]; simp [LmState.fds, LmState.unclosed]
    have e : lmStep fdMax s .connectTcp = s.acceptFailed := by
      unfold lmStep
      rw [h4]
      simp only [h5]
      rw [if_neg (by omega)]
    simp only [List.cons_append, List.nil_append, lmRun, e]
    have e2 : lmStep fdMax s.acceptFailed .exitRecv = s.acceptFailed.leave .err := by
      unfold lmStep
      have : s.acceptFailed.phase = .running := h4
      rw [this]
      simp [LmState.acceptFailed]
    rw [e2]
    unfold LmState.leave
    simp only
    split <;> simp

/-- What a remote peer can cause: connections and ends of sessions. -/
def PeerOp : LmOp → Prop
  | .connectTcp | .connectUdp | .sessionDone _ | .sighup | .exitRecv => True
  | _ => False

/-- C56 (partial: as long as file descriptors are left): connections, in whatever number and order, and ends of sessions, with whatever
result, never terminate the server nor stop it from accepting. -/
theorem C56_keeps_accepting_partial {limit : Nat} (h1 : 0 < limit) {s0 : LmState} (h0 : lmStart limit = .ok s0) {fdMax : Nat} (ops : List LmOp)
    (hop : ∀ op ∈ ops, PeerOp op) (hfd : ∀ a b, ops = a ++ .connectTcp :: b → (lmRun fdMax s0 a).fds < fdMax) :
    (lmRun fdMax s0 ops).phase = .running ∧ (lmRun fdMax s0 ops).accept = .accepting := by
  have hi : s0.phase = .running ∧ s0.accept = .accepting ∧ s0.exitMsg = false ∧ LmReach limit fdMax s0 := by
    refine ⟨?_, ?_, ?_, .start h0⟩ <;> (unfold lmStart at h0; split at h0; cases h0; injection h0 with h0; subst h0; rfl)
  clear h0
  induction ops generalizing s0 with
  | nil => exact ⟨hi.1, hi.2.1⟩
  | cons op ops ih =>
    obtain ⟨h2, h3, h4, h5⟩ := hi
    refine ih (fun o ho => hop o (by simp [ho])) (fun a b hab => ?_) ?_
    · have := hfd (op :: a) b (by rw [hab]; rfl)
      simpa [lmRun] using this
    · refine ⟨?_, ?_, ?_, .step op h5⟩
      all_goals
        have hp := (lmReach_permits h5).1
        obtain ⟨p, rfl⟩ : ∃ p, limit = p + 1 := ⟨limit - 1, by omega⟩
        have ho := hop op (by simp)
        have hf := fun (e : op = .connectTcp) => hfd [] ops (by rw [e]; rfl)
        unfold lmStep
        rw [h2]
        cases op with
        | connectTcp =>
          have := hf rfl
          simp only [lmRun] at this
          simp only [h3]
          rw [if_pos this]
          simp [LmState.accepted, hp, semAcquire, h2, h3, h4]
        | connectUdp => simp [h3, LmState.accepted, hp, semAcquire, h2, h4]
        | sessionDone id => simp [h2, h3, h4]
        | sighup => simp [h2, h3, h4]
        | exitRecv => simp [h2, h3, h4]
        | acceptError => exact absurd ho (by simp [PeerOp])
        | sessionPanic => exact absurd ho (by simp [PeerOp])
        | sigterm => exact absurd ho (by simp [PeerOp])
        | sigint => exact absurd ho (by simp [PeerOp])

/-- Three descriptors: the fourth connection ends the server, with exit status failure if the sessions have ended meanwhile. -/
example : (lmRun 3 ⟨.running, .accepting, 8, [], 0, false⟩ [.connectTcp, .connectTcp, .connectTcp, .connectTcp, .sessionDone 0, .sessionDone 1, .sessionDone 2,
    .exitRecv]).phase = .exited .err := by decide
/-- With a session ended in time it goes on. -/
example : (lmRun 3 ⟨.running, .accepting, 8, [], 0, false⟩ [.connectTcp, .connectTcp, .connectTcp, .sessionDone 1, .connectTcp, .exitRecv]).phase = .running := by
  decide

/-! ## C57: orderly termination -/

/-- C57 is false: with a session in progress SIGTERM ends in an assertion failure. -/
theorem C57_negation : ∃ s ops, lmStart 8 = .ok s ∧ (lmRun 100 s (ops ++ [.sigterm])).phase = .aborted :=
  ⟨⟨.running, .accepting, 8, [], 0, false⟩, [.connectTcp], by decide, by decide⟩

/-- C57 (partial: no session in progress): SIGTERM leads to exit status success, SIGINT to failure; nothing happens afterwards. -/
theorem C57_orderly_exit_partial {limit fdMax : Nat} (h1 : 0 < limit) {s : LmState} (h : LmReach limit fdMax s) (hr : s.phase = .running)
    (hs : s.sessions = []) (ops : List LmOp) :
    (lmRun fdMax s (.sigterm :: ops)).phase = .exited (.ok ()) ∧ (lmRun fdMax s (.sigint :: ops)).phase = .exited .err := by
  have hu : s.unclosed = [] := by
    unfold LmState.unclosed
    rw [hs]
    have := (lmReach_permits h).2.1 h1
    cases ha : s.accept with
    | accepting => rfl
    | ended => rfl
    | acquiring c => exact absurd ha (this c)
  have stay : ∀ (t : LmState) c, t.phase = .exited c → (lmRun fdMax t ops).phase = .exited c := by
    intro t c ht
    induction ops generalizing t with
    | nil => exact ht
    | cons op ops ih =>
      rw [lmRun]
      refine ih _ ?_
      unfold lmStep
      rw [ht]
      exact ht
  constructor
  · rw [lmRun]
    refine stay _ _ ?_
    unfold lmStep
    rw [hr]
    simp [LmState.leave, hu]
  · rw [lmRun]
    refine stay _ _ ?_
    unfold lmStep
    rw [hr]
    simp [LmState.leave, hu]

/-- SIGHUP changes nothing. -/
theorem C57_sighup_ignored (fdMax : Nat) (s : LmState) : lmStep fdMax s .sighup = s := by
  unfold lmStep; split <;> rfl

example : (lmRun 100 ⟨.running, .accepting, 8, [], 0, false⟩ [.connectTcp, .sighup, .sessionDone 0, .sigterm]).phase = .exited (.ok ()) := by decide

/-! ## letmeinfwd: from events to firewall operations -/

theorem fwAccept_not_panic (testMode : Bool) (ids : UInt32 × UInt32) (cred : Option Cred) (pidFile : Option Str) :
    fwAccept testMode ids cred pidFile ≠ .panic := by
  have hpid : getLetmeindPid pidFile ≠ .panic := by
    intro h
    unfold getLetmeindPid at h
    cases pidFile with
    | none => cases h
    | some p =>
      simp only at h
      revert h
      unfold parseI32
      split
      · rename_i c rest _
        have := parseDigits_not_panic (radix := 10) (max := 0x80000000) (acc := 0) (s := c :: rest)
        cases hx : parseDigits 10 0x80000000 0 (c :: rest) with
        | panic => exact absurd hx this
        | ok n => simp
        | err => simp
      · have := fromStrRadix_not_panic (radix := 10) (max := 0x7FFFFFFF) (s := trim p)
        cases hx : fromStrRadix 10 0x7FFFFFFF (trim p) with
        | panic => exact absurd hx this
        | ok n => simp
        | err => simp
  unfold fwAccept
  split
  · simp
  · split
    · simp
    · refine R.bind_not_panic hpid fun e _ => ?_
      intro h
      repeat' split at h
      all_goals cases h

/-- The operations on the firewall that a history amounts to. -/
def lifeOps (setup : FwdSetup) : FwdLife → List FwdEvent → List FwdOp
  | _, [] => []
  | s, ev :: rest => (s.opOf ev).toList ++ lifeOps setup (lifeStep setup s ev) rest

theorem connected_core (setup : FwdSetup) (s : FwdLife) (cred : Option Cred) (pf : Option Str) : (s.connected setup cred pf).core = s.core := by
  unfold FwdLife.connected
  cases h : fwAccept setup.testMode setup.ids cred pf with
  | ok u => simp only; split <;> rfl
  | err => rfl
  | panic => exact absurd h (fwAccept_not_panic _ _ _ _)

theorem lifeStep_core (setup : FwdSetup) (s : FwdLife) (ev : FwdEvent) :
    (lifeStep setup s ev).core = (fwdRun setup.conf s.core (s.opOf ev).toList).2 := by
  unfold lifeStep
  cases h : s.opOf ev with
  | some op => cases ev <;> rfl
  | none =>
    simp only [Option.toList_none, fwdRun]
    split
    · cases ev <;> simp [connected_core]
    · rfl

theorem lifeRun_core (setup : FwdSetup) (s : FwdLife) (evs : List FwdEvent) :
    (lifeRun setup s evs).core = (fwdRun setup.conf s.core (lifeOps setup s evs)).2 := by
  induction evs generalizing s with
  | nil => rfl
  | cons ev rest ih => rw [lifeRun, ih, lifeStep_core, lifeOps, fwdRun_append]

theorem opOf_fair {n : NftNames} {s : FwdLife} {ev : FwdEvent} {op : FwdOp} (h : s.opOf ev = some op) (hf : EventFair n s.core ev) :
    OpFair n s.core op := by
  cases ev with
  | foreign k => simp [FwdLife.opOf] at h; subst h; exact hf
  | reorder l => simp [FwdLife.opOf] at h; subst h; exact hf
  | maintain now env => simp [FwdLife.opOf] at h; subst h; exact hf
  | signal ok => simp [FwdLife.opOf] at h; subst h; trivial
  | exitRecv ok => simp [FwdLife.opOf] at h; obtain ⟨_, rfl⟩ := h; trivial
  | message id rx now ok => simp [FwdLife.opOf] at h; obtain ⟨_, rfl⟩ := h; trivial
  | _ => simp [FwdLife.opOf] at h

theorem lifeOps_fair {setup : FwdSetup} {n : NftNames} {s : FwdLife} {evs : List FwdEvent} (hf : LifeFair setup n s evs) :
    Fair setup.conf n s.core (lifeOps setup s evs) := by
  induction evs generalizing s with
  | nil => trivial
  | cons ev rest ih =>
    rw [lifeOps]
    have h2 := ih hf.2
    rw [lifeStep_core] at h2
    cases h : s.opOf ev with
    | none => rw [h] at h2; exact h2
    | some op => rw [h] at h2; exact ⟨opOf_fair h hf.1, h2⟩

theorem lifeRun_append (setup : FwdSetup) (s : FwdLife) (a b : List FwdEvent) :
    lifeRun setup s (a ++ b) = lifeRun setup (lifeRun setup s a) b := by
  induction a generalizing s with
  | nil => rfl
  | cons ev a ih => exact ih _

theorem lifeRun_dead (setup : FwdSetup) {s : FwdLife} (h : s.core.phase.alive = false) (evs : List FwdEvent) :
    (lifeRun setup s evs).core.phase = s.core.phase := by
  rw [lifeRun_core]
  generalize lifeOps setup s evs = ops
  generalize s.core = c at h
  induction ops generalizing c with
  | nil => rfl
  | cons op ops ih =>
    have hstep : (fwdStep setup.conf c op).2.phase = c.phase := by
      obtain ⟨ph, fw, k⟩ := c
      cases ph <;> simp [FwdPhase.alive] at h <;> cases op <;> rfl
    rw [fwdRun, ih _ (by rw [hstep]; exact h), hstep]

/-- A request stems from a message on an open connection. -/
theorem request_of_message {setup : FwdSetup} {s : FwdLife} {evs : List FwdEvent} {rx : FwRecvOut} {now : Nat} {ok : Bool}
    (h : FwdOp.request rx now ok ∈ lifeOps setup s evs) :
    ∃ a id b, evs = a ++ .message id rx now ok :: b ∧ id ∈ (lifeRun setup s a).conns := by
  induction evs generalizing s with
  | nil => cases h
  | cons ev rest ih =>
    rw [lifeOps, List.mem_append] at h
    rcases h with h | h
    · refine ⟨[], ?_⟩
      cases ev with
      | message id rx' now' ok' =>
        simp [FwdLife.opOf] at h
        obtain ⟨hm, rfl, rfl, rfl⟩ := h
        exact ⟨id, rest, rfl, hm⟩
      | exitRecv ok => simp [FwdLife.opOf] at h
      | _ => simp [FwdLife.opOf] at h
    · obtain ⟨a, id, b, rfl, hm⟩ := ih h
      exact ⟨ev :: a, id, b, rfl, hm⟩

/-- A connection was accepted. -/
theorem conn_of_connect {setup : FwdSetup} {s : FwdLife} {evs : List FwdEvent} {id : Nat} (h : id ∈ (lifeRun setup s evs).conns) :
    id ∈ s.conns ∨ ∃ a cred pf b, evs = a ++ .connect cred pf :: b ∧ id = (lifeRun setup s a).nextId ∧
      fwAccept setup.testMode setup.ids cred pf = .ok () := by
  induction evs generalizing s with
  | nil => exact .inl h
  | cons ev rest ih =>
    rcases ih h with h | ⟨a, cred, pf, b, rfl, h1, h2⟩
    · have hstep : id ∈ s.conns ∨ ∃ cred pf, ev = .connect cred pf ∧ id = s.nextId ∧ fwAccept setup.testMode setup.ids cred pf = .ok () := by
        unfold lifeStep at h
        cases ho : s.opOf ev with
        | some op =>
          rw [ho] at h
          cases ev with
          | message id' rx now ok => simp only [List.mem_filter] at h; exact .inl h.1
          | _ => exact .inl h
        | none =>
          rw [ho] at h
          simp only at h
          split at h
          · cases ev with
            | connect cred pf =>
              simp only [FwdLife.connected] at h
              cases hacc : fwAccept setup.testMode setup.ids cred pf with
              | ok u =>
                rw [hacc] at h
                simp only at h
                split at h
                · exact .inl h
                · simp only [List.mem_append, List.mem_singleton] at h
                  rcases h with h | h
                  · exact .inl h
                  · exact .inr ⟨cred, pf, rfl, h, hacc⟩
              | err => rw [hacc] at h; exact .inl h
              | panic => rw [hacc] at h; exact .inl h
            | _ => exact .inl h
          · exact .inl h
      rcases hstep with h | ⟨cred, pf, rfl, h1, h2⟩
      · exact .inl h
      · exact .inr ⟨[], cred, pf, rest, rfl, h1, h2⟩
    · exact .inr ⟨ev :: a, cred, pf, b, rfl, h1, h2⟩

theorem lifeStart_ok {testMode : Bool} {passwd group : Option Str} {conf : Config} {k k1 : Kernel} {nftOk : Bool} {limit : Nat}
    {listener : UInt32 × UInt32 → R UnixListener} {setup : FwdSetup} {s : FwdLife}
    (h : lifeStart testMode passwd group conf k nftOk limit listener = (k1, .ok (setup, s))) :
    setup.conf = conf ∧ setup.testMode = testMode ∧ readEtcPasswd testMode passwd group = .ok setup.ids ∧ s.conns = [] ∧
      s.accept = .accepting ∧ s.exitMsg = false ∧ s.permits = limit ∧ fwdStart conf k nftOk = some s.core ∧ s.core.kernel = k1 := by
  unfold lifeStart at h
  cases hr : readEtcPasswd testMode passwd group with
  | err => rw [hr] at h; simp at h
  | panic => rw [hr] at h; simp at h
  | ok ids =>
    rw [hr] at h
    simp only at h
    unfold fwdStart
    cases hn : NftFirewall.new conf k nftOk with
    | mk r k' =>
      rw [hn] at h
      cases r with
      | err => simp at h
      | panic => simp at h
      | ok fw =>
        simp only [Prod.mk.injEq] at h
        obtain ⟨rfl, h⟩ := h
        split at h
        · split at h
          · cases h
          · simp only [R.ok.injEq, Prod.mk.injEq] at h
            obtain ⟨rfl, rfl⟩ := h
            exact ⟨rfl, rfl, rfl, rfl, rfl, rfl, rfl, rfl, rfl⟩
        · cases h
        · cases h

/-! ## C60: who asked for an open port -/

/-- **C60**. Whatever connects, sends or fails, and whenever: a packet that the chain accepts goes to an enabled control port, or it is covered by
a request that arrived on a connection whose peer was letmeind when it was accepted: its pid was the one in the pid file, its user and group ids
those of the account files. -/
theorem C60_asked_by_letmeind {passwd group : Option Str} {conf : Config} {n : NftNames} (hn : ChainOf conf n) {k0 k1 : Kernel} {nftOk : Bool}
    {limit : Nat} {listener : UInt32 × UInt32 → R UnixListener} {setup : FwdSetup} {s0 : FwdLife}
    (h0 : lifeStart false passwd group conf k0 nftOk limit listener = (k1, .ok (setup, s0))) (evs : List FwdEvent)
    (hf : LifeFair setup n s0 evs) (pkt : Packet) (hacc : chainAccepts n (lifeRun setup s0 evs).core.kernel pkt = true) :
    toControlPort conf pkt ∨
      ∃ a cred pf b id m now ok c addr t port, evs = a ++ .connect cred pf :: (b ++ .message id (.msg m) now ok :: c) ∧
        id = (lifeRun setup s0 a).nextId ∧ IsLetmeind passwd group pf cred ∧
        m.getAddr = some addr ∧ m.getPort = some (t, port) ∧ covers addr (selection t port) pkt := by
  obtain ⟨rfl, htest, hids, hconns, _, _, _, hstart, _⟩ := lifeStart_ok h0
  rw [lifeRun_core] at hacc
  rcases C20_never_unasked setup.conf n hn k0 nftOk s0.core hstart _ (lifeOps_fair hf) pkt hacc with h | ⟨x, hx, addr, p, to, hg, hcov⟩
  · exact .inl h
  · obtain ⟨op, reply⟩ := x
    have hop : op ∈ lifeOps setup s0 evs := by
      have : ∀ (ops : List FwdOp) (s : FwdState), (op, reply) ∈ (fwdRun setup.conf s ops).1 → op ∈ ops := by
        intro ops
        induction ops with
        | nil => intro s h; cases h
        | cons o ops ih =>
          intro s h
          simp only [fwdRun, List.mem_cons, Prod.mk.injEq] at h
          rcases h with ⟨rfl, _⟩ | h
          · simp
          · exact List.mem_cons_of_mem _ (ih _ h)
      exact this _ _ hx
    simp only [granted] at hg
    split at hg
    · rename_i m now ok r
      split at hg
      · split at hg
        · rename_i addr' t port ha hp
          simp only [Option.some.injEq, Prod.mk.injEq] at hg
          obtain ⟨rfl, rfl, rfl⟩ := hg
          obtain ⟨a, id, c, rfl, hm⟩ := request_of_message hop
          rcases conn_of_connect hm with h | ⟨a', cred, pf, b, rfl, h1, h2⟩
          · rw [hconns] at h; cases h
          · refine .inr ⟨a', cred, pf, b, id, m, now, ok, c, addr', t, port, by simp, h1, ?_, ha, hp, hcov⟩
            rw [htest] at h2
            exact (C26_served_iff passwd group pf cred).1 (by rw [hids, R.bind_ok]; exact h2)
        · cases hg
      · cases hg
    · cases hg

/-! ## C58: rejected connections -/

/-- **C58** (partial: until the main task notices). A rejected connection changes neither the rules nor the leases nor the connections that are
already being served. -/
theorem C58_rejected_changes_nothing_partial (setup : FwdSetup) (s : FwdLife) (cred : Option Cred) (pf : Option Str)
    (h : fwAccept setup.testMode setup.ids cred pf ≠ .ok ()) :
    (lifeStep setup s (.connect cred pf)).core = s.core ∧ (lifeStep setup s (.connect cred pf)).conns = s.conns := by
  refine ⟨by rw [lifeStep_core]; rfl, ?_⟩
  simp only [lifeStep, FwdLife.opOf]
  split
  · unfold FwdLife.connected
    cases hx : fwAccept setup.testMode setup.ids cred pf with
    | ok u => exact absurd hx h
    | err => rfl
    | panic => rfl
  · rfl

/-- **C58 is false**. A single rejected connection makes the daemon terminate and close all ports: in every state in which it accepts connections,
for every process that is not letmeind (but may open the socket). -/
theorem C58_negation {testMode : Bool} {passwd group : Option Str} {conf : Config} {k0 k1 : Kernel} {nftOk : Bool} {limit : Nat}
    {listener : UInt32 × UInt32 → R UnixListener} {setup : FwdSetup} {s0 : FwdLife}
    (h0 : lifeStart testMode passwd group conf k0 nftOk limit listener = (k1, .ok (setup, s0))) (evs : List FwdEvent)
    (hacc : (lifeRun setup s0 evs).accept = .accepting) (cred : Option Cred) (pf : Option Str)
    (h : fwAccept setup.testMode setup.ids cred pf ≠ .ok ()) (ok : Bool) :
    (lifeRun setup s0 (evs ++ [.connect cred pf, .exitRecv ok])).core.phase = .stopped := by
  obtain ⟨rfl, _, _, _, _, _, _, hstart, _⟩ := lifeStart_ok h0
  have hnc := C49_no_crash setup.conf k0 nftOk s0.core hstart (lifeOps setup s0 (evs ++ [.connect cred pf, .exitRecv ok]))
  rw [← lifeRun_core, lifeRun_append] at hnc
  rw [lifeRun_append]
  generalize lifeRun setup s0 evs = s at *
  by_cases hal : s.core.phase.alive = true
  · have e : lifeStep setup s (.connect cred pf) = { s with accept := .ended, exitMsg := true } := by
      simp only [lifeStep, FwdLife.opOf, hal, hacc, and_self, if_true, FwdLife.connected]
      cases hx : fwAccept setup.testMode setup.ids cred pf with
      | ok u => exact absurd hx h
      | panic => exact absurd hx (fwAccept_not_panic _ _ _ _)
      | err => rfl
    rw [lifeRun, e] at hnc ⊢
    simp only [lifeRun, lifeStep, FwdLife.opOf, true_or, if_true] at hnc ⊢
    have : ∀ c : FwdState, c.phase.alive = true → (fwdStep setup.conf c (.terminate ok)).2.phase = .stopped ∨
        (fwdStep setup.conf c (.terminate ok)).2.phase = .crashed := by
      intro c hc
      obtain ⟨ph, fw, k⟩ := c
      cases ph <;> simp [FwdPhase.alive] at hc <;> simp only [fwdStep] <;> split <;> simp
    rcases this s.core hal with h | h
    · exact h
    · exact absurd h hnc
  · have hdead := lifeRun_dead setup (s := s) (by simpa using hal) [.connect cred pf, .exitRecv ok]
    rw [hdead] at hnc ⊢
    cases hp : s.core.phase with
    | running => rw [hp] at hal; simp [FwdPhase.alive] at hal
    | stopping => rw [hp] at hal; simp [FwdPhase.alive] at hal
    | stopped => rfl
    | crashed => exact absurd hp hnc

/-! ## C59: what is left behind -/

theorem lifeOps_terminate {setup : FwdSetup} {s : FwdLife} {evs : List FwdEvent} (hok : ∀ ev ∈ evs, FinalNftOk ev) :
    ∀ ok, FwdOp.terminate ok ∈ lifeOps setup s evs → ok = true := by
  intro ok h
  induction evs generalizing s with
  | nil => cases h
  | cons ev rest ih =>
    rw [lifeOps, List.mem_append] at h
    rcases h with h | h
    · have hev := hok ev (by simp)
      cases ev with
      | signal ok' => simp [FwdLife.opOf] at h; rw [h]; exact hev
      | exitRecv ok' => simp [FwdLife.opOf] at h; rw [← h.2]; exact hev
      | message id rx now ok' => simp [FwdLife.opOf] at h
      | _ => simp [FwdLife.opOf] at h
    · exact ih (fun e he => hok e (by simp [he])) h

theorem first_terminate (ops : List FwdOp) : (∀ op ∈ ops, notTerminate op) ∨
    ∃ a ok b, ops = a ++ .terminate ok :: b ∧ ∀ op ∈ a, notTerminate op := by
  induction ops with
  | nil => simp
  | cons op ops ih =>
    by_cases h : notTerminate op
    · rcases ih with ih | ⟨a, ok, b, rfl, ha⟩
      · refine .inl fun o ho => ?_
        rcases List.mem_cons.1 ho with rfl | ho
        · exact h
        · exact ih o ho
      · refine .inr ⟨op :: a, ok, b, rfl, fun o ho => ?_⟩
        rcases List.mem_cons.1 ho with rfl | ho
        · exact h
        · exact ha o ho
    · cases op with
      | terminate ok => exact .inr ⟨[], ok, ops, rfl, by simp⟩
      | _ => exact absurd trivial h

/-- **C59** (partial: after a completed start-up, and if the last call of nftables succeeds). When the daemon has ended, for whatever reason, its chain
is empty. -/
theorem C59_no_rules_left_partial {testMode : Bool} {passwd group : Option Str} {conf : Config} {n : NftNames} (hn : ChainOf conf n) {k0 k1 : Kernel}
    {nftOk : Bool} {limit : Nat} {listener : UInt32 × UInt32 → R UnixListener} {setup : FwdSetup} {s0 : FwdLife}
    (h0 : lifeStart testMode passwd group conf k0 nftOk limit listener = (k1, .ok (setup, s0))) (evs : List FwdEvent)
    (hf : LifeFair setup n s0 evs) (hok : ∀ ev ∈ evs, FinalNftOk ev) (hdead : (lifeRun setup s0 evs).core.phase.alive = false) :
    ownRules n (lifeRun setup s0 evs).core.kernel = [] := by
  obtain ⟨rfl, _, _, _, _, _, _, hstart, _⟩ := lifeStart_ok h0
  have hff := lifeOps_fair hf
  have hterm := lifeOps_terminate (setup := setup) (s := s0) hok
  rw [lifeRun_core] at hdead ⊢
  rcases first_terminate (lifeOps setup s0 evs) with h | ⟨a, ok, b, he, ha⟩
  · exfalso
    obtain ⟨hp0, n', hn', hi⟩ := fwdStart_inv hstart
    obtain rfl := chainOf_unique hn hn'
    rcases phase_before_terminate hn hi (.inl hp0) _ hff h with h | h <;> (rw [h] at hdead; simp [FwdPhase.alive] at hdead)
  · have : ok = true := hterm ok (by rw [he]; simp)
    subst this
    rw [he] at hff ⊢
    exact C22_shutdown_closes_everything setup.conf n hn k0 nftOk s0.core hstart a b ha hff

/-- **C59 is false**. When start-up fails after the initialization of the firewall (no socket, no pid file, no seccomp filter), the rules that
open the control port remain although the daemon does not run. -/
theorem C59_negation : ∃ passwd group conf n k0 k1 listener, ChainOf conf n ∧ lifeStart false passwd group conf k0 true 8 listener = (k1, .err) ∧
    ownRules n k0 = [] ∧ ∃ pkt, chainAccepts n k0 pkt = false ∧ chainAccepts n k1 pkt = true := by
  refine ⟨some "letmeind:x:997:997::/:/bin/false".toList, some "letmeind:x:996:".toList, fwConf, fwNames, ⟨[], 1⟩, _, fun _ => .err,
    ⟨by decide, rfl, rfl, by decide, by decide⟩, rfl, by decide, ⟨examplePeer, .tcp, fwConf.port.port⟩, by decide, by decide +kernel⟩

/-! ## C43 for letmeinfwd -/

/-- **C43** for letmeinfwd: the permits are all available in all states here, too. -/
theorem C43_fwd_permits_unused {testMode : Bool} {passwd group : Option Str} {conf : Config} {k0 k1 : Kernel} {nftOk : Bool} {limit : Nat}
    {listener : UInt32 × UInt32 → R UnixListener} {setup : FwdSetup} {s0 : FwdLife}
    (h0 : lifeStart testMode passwd group conf k0 nftOk limit listener = (k1, .ok (setup, s0))) (evs : List FwdEvent) :
    (lifeRun setup s0 evs).permits = limit ∧ (0 < limit → ∀ c, (lifeRun setup s0 evs).accept ≠ .acquiring c) ∧
      (limit = 0 → (lifeRun setup s0 evs).conns = []) := by
  obtain ⟨_, _, _, hc, ha, hx1, hp, hx2, hx3⟩ := lifeStart_ok h0
  have hi : s0.permits = limit ∧ (0 < limit → ∀ c, s0.accept ≠ .acquiring c) ∧ (limit = 0 → s0.conns = []) :=
    ⟨hp, fun _ c => by rw [ha]; simp, fun _ => hc⟩
  clear h0 hc ha hp hx1 hx2 hx3
  induction evs generalizing s0 with
  | nil => exact hi
  | cons ev rest ih =>
    refine ih ?_
    obtain ⟨h1, h2, h3⟩ := hi
    unfold lifeStep
    cases ho : s0.opOf ev with
    | some op =>
      cases ev with
      | message id rx now ok => exact ⟨h1, h2, fun h => by simp [h3 h]⟩
      | _ => exact ⟨h1, h2, h3⟩
    | none =>
      simp only
      split
      · rename_i hacc
        cases ev with
        | connect cred pf =>
          simp only [FwdLife.connected]
          cases fwAccept setup.testMode setup.ids cred pf with
          | err => exact ⟨h1, by simp, h3⟩
          | panic => exact ⟨h1, h2, h3⟩
          | ok u =>
            cases limit with
            | zero => simp [h1, semAcquire, h3]
            | succ l => simp [h1, semAcquire, semRelease, hacc.2]
        | acceptError => exact ⟨h1, by simp, h3⟩
        | _ => exact ⟨h1, h2, h3⟩
      · exact ⟨h1, h2, h3⟩

/-! ## C61: the socket of letmeinfwd -/

/-- **C61**. letmeinfwd listens on a socket that systemd passed, or (only with `--no-systemd`) on one that it created itself, which outside test
mode belongs to root and the group letmeind and gives no rights to others. -/
theorem C61_socket {noSystemd testMode : Bool} {gid : UInt32} {sockets : R (List SystemdSocket)} {env : UnixEnv} {l : UnixListener}
    (h : fwServerNew noSystemd testMode gid sockets env = .ok l) :
    (∃ fd rest, noSystemd = false ∧ sockets = .ok (.Unix fd :: rest) ∧ l = .systemd fd) ∨
      (noSystemd = true ∧ testMode = false ∧ l = .bound (some (0, gid, 0o660))) ∨ (noSystemd = true ∧ testMode = true ∧ l = .bound none) := by
  unfold fwServerNew at h
  cases noSystemd with
  | false =>
    simp only [Bool.not_false, if_true] at h
    split at h
    · rename_i fd rest
      split at h
      · cases h
      · split at h
        · cases h
        · injection h with h
          exact .inl ⟨fd, rest, rfl, rfl, h.symm⟩
    · cases h
    · cases h
  | true =>
    simp only [Bool.not_true, Bool.false_eq_true, if_false, fwBind] at h
    split at h
    · cases h
    · split at h
      · cases h
      · split at h
        · rename_i ht
          injection h with h
          exact .inr (.inr ⟨rfl, ht, h.symm⟩)
        · rename_i ht
          split at h
          · cases h
          · injection h with h
            exact .inr (.inl ⟨rfl, by simpa using ht, h.symm⟩)

/-! ## Concrete cases for letmeinfwd -/

/-- The account files of a system. -/
def lifePasswd : Str := "root:x:0:0::/root:/bin/sh\nletmeind:x:997:996::/:/bin/false\n".toList
/-- The account files of a system. -/
def lifeGroup : Str := "root:x:0:\nletmeind:x:996:\n".toList
/-- letmeind. -/
def lifePeer : Option Cred := some { pid := some 1234, uid := 997, gid := 996 }
/-- letmeinfwd, just started. -/
def lifeBegin : Option (FwdSetup × FwdLife) :=
  match lifeStart false (some lifePasswd) (some lifeGroup) fwConf fwKernel true 8 (fun _ => .ok (.systemd 3)) with
  | (_, .ok x) => some x
  | _ => none
/-- letmeind asks for port 22. -/
def lifeAsk : List FwdEvent :=
  [.connect lifePeer (some "1234\n".toList), .message 0 (.msg (FwMessage.newOpen examplePeer .Tcp 22)) 0 true]

example : lifeBegin.isSome = true ∧
    (lifeBegin.map fun x => chainAccepts fwNames (lifeRun x.1 x.2 lifeAsk).core.kernel ⟨examplePeer, .tcp, 22⟩) = some true ∧
    (lifeBegin.map fun x => chainAccepts fwNames (lifeRun x.1 x.2 (lifeAsk.drop 1)).core.kernel ⟨examplePeer, .tcp, 22⟩) = some false ∧
    (lifeBegin.map fun x => (lifeRun x.1 x.2 (lifeAsk ++ [.connect (some ⟨some 99, 0, 0⟩) (some "1234\n".toList)])).core.phase) = some .running ∧
    (lifeBegin.map fun x => (lifeRun x.1 x.2 (lifeAsk ++ [.connect (some ⟨some 99, 0, 0⟩) (some "1234\n".toList), .exitRecv true])).core.phase) = some .stopped ∧
    (lifeBegin.map fun x => ownRules fwNames (lifeRun x.1 x.2 (lifeAsk ++ [.signal true])).core.kernel) = some [] := by decide +kernel
example (setup : FwdSetup) (s : FwdLife) (n : NftNames) : LifeFair setup n s lifeAsk := ⟨trivial, trivial, trivial⟩
example : fwServerNew true false 996 .err ⟨fun _ => true, true, true, true, true, true⟩ = .ok (.bound (some (0, 996, 0o660))) ∧
    fwServerNew false false 996 (.ok [.Unix 3]) ⟨fun _ => true, true, true, true, true, true⟩ = .ok (.systemd 3) ∧
    fwServerNew false false 996 (.ok []) ⟨fun _ => true, true, true, true, true, true⟩ = .err := by decide

end Letmein.Props
