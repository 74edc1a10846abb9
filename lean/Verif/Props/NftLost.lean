import Verif.Lemmas.NftLost

/-!
# C84: a request that was refused opens nothing

True as long as `nft`, run for a connection, reports failures truthfully; false otherwise: then a rule can exist that no lease knows of, which nothing removes before
the chain is flushed. Even then nothing opens that no connection asked for, and a successful shutdown closes everything.
-/

namespace Letmein.Props
open Letmein Prog Spec

/-- **C84** (nothing unasked). Even if any run of `nft` may take effect and be reported as failed: at every moment a packet that the chain accepts goes to an enabled control port,
or is covered by the message of a connection that has got the lock, which asks to open a configured port other than the control port for an allowed address. -/
theorem C84_nothing_unasked (conf : Config) (n : NftNames) (hn : ChainOf conf n) (L : Who → Prop) (k0 : Kernel) (ok0 : Bool) (f : FwdState)
    (h0 : fwdStart conf k0 ok0 = some f) (t : Nat) (s : TSys) (h1 : NSteps conf L (OwnUnchanged n) (TSys.start f t) s) (pkt : Packet)
    (hacc : chainAccepts n s.kernel pkt = true) :
    toControlPort conf pkt ∨ ∃ (id : Nat) (c : ConnTask) (m : FwMessage) (addr : IpAddr) (pt : PortType) (port : UInt16),
      s.conns[id]? = some c ∧ (∀ a p, c.pc ≠ .waiting a p) ∧ c.rx = .msg m ∧ m.operation = .Open ∧ m.getAddr = some addr ∧ m.getPort = some (pt, port) ∧
      covers addr (selection pt port) pkt ∧ addrCheck addr = true ∧ (conf.resourceIdByPort port none).isSome = true ∧ port ≠ conf.port.port := by
  rcases ruleOk_accepts (askedInv_steps hn (askedInv_start hn h0 t) h1).rules hacc with h | ⟨a, p, ⟨id, c, h2, h3, h4⟩, hc⟩
  · exact .inl h
  · obtain ⟨m, pt, port, e1, e2, e3, e4, rfl, e5, e6, e7⟩ := fwdDecide_open h4
    exact .inr ⟨id, c, m, a, pt, port, h2, h3, e1, e2, e3, e4, hc, e5, e6, e7⟩

/-- **C84** (partial: nothing refused, if `nft` run for a connection tells the truth). Runs of `nft` for the maintenance and for the shutdown may take effect and be reported as failed;
those for connections may fail, but are then without effect. At every moment a packet that the chain accepts goes to an enabled control port or is covered by the message of a connection
that has been answered with Ack or has the lock. Missing from the full statement: runs for connections that take effect and are reported as failed. -/
theorem C84_refused_partial (conf : Config) (n : NftNames) (hn : ChainOf conf n) (L : Who → Prop) (hL : ∀ id, ¬ L (.conn id)) (k0 : Kernel) (ok0 : Bool) (f : FwdState)
    (h0 : fwdStart conf k0 ok0 = some f) (t : Nat) (s : TSys) (h1 : NSteps conf L (OwnUnchanged n) (TSys.start f t) s) (pkt : Packet)
    (hacc : chainAccepts n s.kernel pkt = true) :
    toControlPort conf pkt ∨ ∃ (id : Nat) (c : ConnTask) (m : FwMessage) (addr : IpAddr) (pt : PortType) (port : UInt16),
      s.conns[id]? = some c ∧ c.rx = .msg m ∧ m.getAddr = some addr ∧ m.getPort = some (pt, port) ∧ covers addr (selection pt port) pkt ∧
      (c.pc = .inside ∨ ∃ r, c.pc = .replied (some r) ∧ r.operation = .Ack) := by
  have hi := (ackedInv_steps hn hL (ackedInv_start hn h0 t) h1).holder
  have fin : ∀ a p, covers a p pkt → AckedBy conf s a p →
      ∃ (id : Nat) (c : ConnTask) (m : FwMessage) (addr : IpAddr) (pt : PortType) (port : UInt16),
      s.conns[id]? = some c ∧ c.rx = .msg m ∧ m.getAddr = some addr ∧ m.getPort = some (pt, port) ∧ covers addr (selection pt port) pkt ∧
      (c.pc = .inside ∨ ∃ r, c.pc = .replied (some r) ∧ r.operation = .Ack) := by
    rintro a p hc ⟨id, c, r, h2, h3, h4, h5⟩
    obtain ⟨m, pt, port, e1, e2, e3, e4, rfl, _⟩ := fwdDecide_open h5
    exact ⟨id, c, m, a, pt, port, h2, e1, e3, e4, hc, .inr ⟨r, h3, h4⟩⟩
  have plain : (∀ c ∈ ownContents n s.kernel, RuleOk conf n (AckedBy conf s) c) → toControlPort conf pkt ∨ ∃ a p, covers a p pkt ∧ AckedBy conf s a p :=
    fun h => (ruleOk_accepts h hacc).imp id fun ⟨a, p, h1, h2⟩ => ⟨a, p, h2, h1⟩
  generalize s.holder = o at hi
  cases o with
  | none => exact (plain hi).imp id fun ⟨a, p, h1, h2⟩ => fin a p h1 h2
  | some o =>
    obtain ⟨who, since, q⟩ := o
    cases who with
    | maint => exact (plain hi.1).imp id fun ⟨a, p, h1, h2⟩ => fin a p h1 h2
    | main => exact (plain hi.1).imp id fun ⟨a, p, h1, h2⟩ => fin a p h1 h2
    | conn i =>
      obtain ⟨rx, a, p, h2, h3, h4⟩ := hi
      cases h4 with
      | opened _ _ h5 =>
        rcases ruleOk_accepts h5 hacc with h | ⟨a', p', h | ⟨rfl, rfl⟩, hc⟩
        · exact .inl h
        · exact .inr (fin a' p' hc h)
        · obtain ⟨m, pt, port, e1, e2, e3, e4, rfl, _⟩ := fwdDecide_open h3
          exact .inr ⟨i, _, m, a', pt, port, h2, e1, e3, e4, hc, .inl rfl⟩
      | refused _ _ _ _ h5 => exact (plain h5).imp id fun ⟨a, p, h1, h2⟩ => fin a p h1 h2
      | running _ _ _ _ _ _ _ _ _ h5 => exact (plain h5).imp id fun ⟨a, p, h1, h2⟩ => fin a p h1 h2

/-! ## Shutdown -/

/-- The shutdown under way. -/
def MainInv (n : NftNames) (s : TSys) : Prop :=
  ∀ since q, s.holder = some ⟨.main, since, q⟩ →
    (∃ k fw, q = .apply [.flush n.family n.table n.chainInput] k ∧ ∀ ok, k ok = .ret (applied ok) fw) ∨
    ∃ r fw, q = .ret r fw ∧ (r = .ok () → ownRules n s.kernel = [])

theorem shutdownP_cases {conf : Config} {n : NftNames} (hn : ChainOf conf n) (fw : NftFirewall) :
    (∃ k fw', shutdownP conf fw = .apply [.flush n.family n.table n.chainInput] k ∧ ∀ ok, k ok = .ret (applied ok) fw') ∨ shutdownP conf fw = .ret .panic fw := by
  unfold shutdownP
  split
  · exact .inr rfl
  · left
    simp only [rebuildP]
    rw [rebuildCmds_shutdown hn (fw := { leases := [], shutdown := true }) rfl]
    exact ⟨_, _, rfl, fun ok => rfl⟩

theorem mainInv_step {conf : Config} {n : NftNames} (hn : ChainOf conf n) {L : Who → Prop} {s s' : TSys} (hi : MainInv n s) (hs : NStep conf L (OwnUnchanged n) s s') :
    MainInv n s' := by
  cases hs with
  | lost h1 h2 h3 h4 =>
    intro since q hh
    simp only [Option.some.injEq, Holder.mk.injEq] at hh
    obtain ⟨rfl, rfl, rfl⟩ := hh
    rcases hi _ _ h2 with ⟨k, fw, h5, h6⟩ | ⟨r, fw, h5, _⟩
    · cases h5
      exact .inr ⟨.err, fw, h6 false, fun h => by cases h⟩
    · cases h5
  | step hs =>
    cases hs with
    | foreign k h =>
      intro since q hh
      rcases hi since q hh with h1 | ⟨r, fw, h1, h2⟩
      · exact .inl h1
      · exact .inr ⟨r, fw, h1, fun hr => by rw [h.own]; exact h2 hr⟩
    | lockConn id h1 h2 h3 => intro since q hh; cases hh
    | lockMaint h1 h2 h3 => intro since q hh; cases hh
    | lockMain h1 h2 h3 =>
      intro since q hh
      cases hh
      rcases shutdownP_cases hn s.fw with ⟨k, fw, h4, h5⟩ | h4
      · exact .inl ⟨k, fw, h4, h5⟩
      · exact .inr ⟨_, _, h4, fun h => by cases h⟩
    | nftList ok h1 h2 =>
      intro since q hh
      simp only [Option.some.injEq, Holder.mk.injEq] at hh
      obtain ⟨rfl, rfl, rfl⟩ := hh
      rcases hi _ _ h2 with ⟨k, fw, h5, h6⟩ | ⟨r, fw, h5, _⟩ <;> cases h5
    | nftApply ok h1 h2 =>
      intro since q hh
      simp only [Option.some.injEq, Holder.mk.injEq] at hh
      obtain ⟨rfl, rfl, rfl⟩ := hh
      rcases hi _ _ h2 with ⟨k, fw, h5, h6⟩ | ⟨r, fw, h5, _⟩
      · cases h5
        refine .inr ⟨_, _, h6 _, fun hr => ?_⟩
        cases ok with
        | false => cases hr
        | true => exact flushed_own n s.kernel
      · cases h5
    | doneConn h1 h2 h3 => intro since q hh; cases hh
    | doneMaint h1 h2 => intro since q hh; cases hh
    | doneMain h1 h2 => intro since q hh; cases hh
    | tick t h => exact hi
    | reorder l h1 h2 h3 => exact hi
    | message rx h => exact hi
    | maintTick h1 h2 => exact hi
    | leave h1 h2 => exact hi

/-- **C84** (shutdown). However often `nft` has reported wrongly before: when the shutdown is about to end with success, the chain is empty. -/
theorem C84_shutdown (conf : Config) (n : NftNames) (hn : ChainOf conf n) (L : Who → Prop) (f : FwdState) (t : Nat) (s : TSys)
    (h1 : NSteps conf L (OwnUnchanged n) (TSys.start f t) s) (since : Nat) (fw : NftFirewall) (hh : s.holder = some ⟨.main, since, .ret (.ok ()) fw⟩) :
    ownRules n s.kernel = [] ∧ ∀ pkt, chainAccepts n s.kernel pkt = false := by
  have hi : MainInv n s := by
    clear hh
    induction h1 with
    | refl => intro since q hh; cases hh
    | step _ h ih => exact mainInv_step hn ih h
  rcases hi _ _ hh with ⟨k, fw, h5, h6⟩ | ⟨r, fw, h5, h6⟩
  · cases h5
  · cases h5
    exact ⟨h6 rfl, fun pkt => by rw [chainAccepts, h6 rfl]; simp⟩

/-! ## Refused, but open -/

theorem NSteps.trans' {conf : Config} {L : Who → Prop} {P : Kernel → Kernel → Prop} {s s' s'' : TSys} (h1 : NSteps conf L P s s') (h2 : NSteps conf L P s' s'') :
    NSteps conf L P s s'' := by
  induction h2 with
  | refl => exact h1
  | step _ h ih => exact .step ih h

theorem NSteps.ofT {conf : Config} {L : Who → Prop} {P : Kernel → Kernel → Prop} {s s' : TSys} (h : TSteps conf P s s') : NSteps conf L P s s' := by
  induction h with
  | refl => exact .refl _
  | step _ h ih => exact .step ih (.step h)

/-- `nft` takes effect and is reported as failed. -/
def nftLost (s : TSys) : Option TSys :=
  if s.crashed = false ∧ s.main ≠ .ended then
    match s.holder with
    | some ⟨who, since, .apply cmds k⟩ =>
      match applyCmds s.kernel cmds with
      | some k' => some { s with kernel := k', holder := some ⟨who, since, k false⟩, crashed := (k false).panics }
      | none => none
    | _ => none
  else none

theorem nftLost_step {conf : Config} {P : Kernel → Kernel → Prop} {s s' : TSys} (h : nftLost s = some s') : NStep conf (fun _ => True) P s s' := by
  unfold nftLost at h
  split at h
  · rename_i hc
    split at h
    · rename_i h1
      split at h
      · rename_i h2; cases h; exact .lost hc h1 trivial h2
      · cases h
    · cases h
  · cases h

/-- Events, `none` for a run of `nft` that takes effect and is reported as failed. -/
def nRun (conf : Config) (s : TSys) : List (Option TEvent) → Option TSys
  | [] => some s
  | some e :: es => (tExec conf s e).bind fun s' => nRun conf s' es
  | none :: es => (nftLost s).bind fun s' => nRun conf s' es

theorem nRun_steps {conf : Config} {P : Kernel → Kernel → Prop} {s s' : TSys} {es : List (Option TEvent)} (hP : ∀ k, some (.foreign k) ∉ es)
    (h : nRun conf s es = some s') : NSteps conf (fun _ => True) P s s' := by
  induction es generalizing s with
  | nil => cases h; exact .refl _
  | cons e es ih =>
    cases e with
    | none =>
      obtain ⟨s1, h1, h2⟩ := Option.bind_eq_some_iff.1 h
      exact NSteps.trans' (.step (.refl _) (nftLost_step h1)) (ih (fun k hk => hP k (by simp [hk])) h2)
    | some e =>
      obtain ⟨s1, h1, h2⟩ := Option.bind_eq_some_iff.1 h
      exact NSteps.trans' (.step (.refl _) (.step (tExec_step (fun k hk => absurd (by simp [hk]) (hP k)) h1))) (ih (fun k hk => hP k (by simp [hk])) h2)

/-- A maintenance at any later time, when there are no leases. -/
theorem idle_maintenance {conf : Config} {P : Kernel → Kernel → Prop} {s : TSys} (hal : s.alive) (hh : s.holder = none) (hm : s.maint = .away) (hl : s.fw.leases = [])
    (hd : s.fw.shutdown = false) (t : Nat) (ht : s.clock ≤ t) : TSteps conf P s { s with clock := t } := by
  have hp : maintainP conf s.fw t = .ret (.ok ()) s.fw := by
    unfold maintainP
    simp only [hd, Bool.false_eq_true, if_false, hl, pruneAllLeaseTimeouts, List.filter_nil, List.map_nil, List.isEmpty_nil, if_true]
    rw [← hl, ← hd]
  have h1 : TStep conf P s { s with clock := t } := .tick t ht
  have h2 : TStep conf P { s with clock := t } { s with clock := t, maint := .waiting } := .maintTick hal hm
  have h3 : TStep conf P { s with clock := t, maint := .waiting } { s with
      clock := t, maint := .inside, holder := some ⟨.maint, t, .ret (.ok ()) s.fw⟩, crashed := false } := by
    have := TStep.lockMaint (conf := conf) (P := P) (s := { s with clock := t, maint := .waiting }) hal hh rfl
    simp only [hp, LProg.panics] at this
    exact this
  have h4 := TStep.doneMaint (conf := conf) (P := P) (s := { s with
      clock := t, maint := .inside, holder := some ⟨.maint, t, .ret (.ok ()) s.fw⟩, crashed := false }) ⟨rfl, hal.2⟩ rfl
  simp only [if_true] at h4
  have he2 : ({ fw := s.fw, kernel := s.kernel, clock := t, holder := none, conns := s.conns, maint := .away, main := s.main, crashed := false } : TSys) = { s with clock := t } := by
    rw [← hh, ← hal.1, ← hm]
  rw [he2] at h4
  exact .step (.step (.step (.step (.refl _) h1) h2) h3) h4

/-- **C84** (negation of the full statement). A daemon runs; the one request it has got was refused; there are no leases; a maintenance has been done, successfully, as late as you like — and
the packet is accepted. -/
theorem C84_negation : ∃ (conf : Config) (n : NftNames) (k0 : Kernel) (f : FwdState) (pkt : Packet),
    ChainOf conf n ∧ fwdStart conf k0 true = some f ∧ ¬ toControlPort conf pkt ∧
    ∀ N, ∃ s s', NSteps conf (fun _ => True) (OwnUnchanged n) (TSys.start f 0) s ∧ TSteps conf (OwnUnchanged n) s s' ∧
      N ≤ s'.clock ∧ s'.alive ∧ s'.holder = none ∧ s'.maint = .away ∧ s'.fw.leases = [] ∧ s'.conns.map repliedOp = [some .Nack] ∧ chainAccepts n s'.kernel pkt = true := by
  refine ⟨fwConf, fwNames, fwKernel, fwStarted, ⟨examplePeer, .tcp, 22⟩, ⟨by decide, rfl, rfl, by decide, by decide⟩, fwStarted_ok, ?_, fun N => ?_⟩
  · intro h
    have : ¬ (22 : UInt16) = fwConf.port.port := by decide
    exact this h.1
  · have h : (match nRun fwConf (TSys.start fwStarted 0) [some (.message (.msg (FwMessage.newOpen examplePeer .Tcp 22))), some (.lockConn 0), none, some .done] with
        | some s => decide (s.crashed = false) && decide (s.main ≠ .ended) && s.holder.isNone && decide (s.maint = .away) && s.fw.leases.isEmpty && !s.fw.shutdown &&
            decide (s.conns.map repliedOp = [some .Nack]) && chainAccepts fwNames s.kernel ⟨examplePeer, .tcp, 22⟩ && decide (s.clock = 0)
        | none => false) = true := by decide +kernel
    split at h
    · rename_i s hs
      simp only [Bool.and_eq_true, decide_eq_true_eq, Option.isNone_iff_eq_none, List.isEmpty_iff, Bool.not_eq_true'] at h
      obtain ⟨⟨⟨⟨⟨⟨⟨⟨h1, h2⟩, h3⟩, h4⟩, h5⟩, h6⟩, h7⟩, h8⟩, h9⟩ := h
      exact ⟨s, { s with clock := N }, nRun_steps (by simp) hs, idle_maintenance ⟨h1, h2⟩ h3 h4 h5 h6 N (by omega), Nat.le_refl _, ⟨h1, h2⟩, h3, h4, h5, h7, h8⟩
    · cases h

/-! ## Concrete cases -/

/-- The first knock is refused, but opens the port; the second one is granted, and adds the same rule again. When the lease expires, maintenance removes one of the two rules: the port
stays open. -/
def twice : List (Option TEvent) :=
  [some (.message (.msg (FwMessage.newOpen examplePeer .Tcp 22))), some (.lockConn 0), none, some .done,
   some (.message (.msg (FwMessage.newOpen examplePeer .Tcp 22))), some (.lockConn 1), some (.nft true), some .done,
   some (.tick (10000 * second)), some .maintTick, some .lockMaint, some (.nft true), some (.nft true), some .done]

example : ∃ s, NSteps fwConf (fun _ => True) (OwnUnchanged fwNames) (TSys.start fwStarted 0) s ∧ s.conns.map repliedOp = [some .Nack, some .Ack] ∧
    s.fw.leases = [] ∧ s.holder.isNone = true ∧ s.maint = .away ∧ chainAccepts fwNames s.kernel ⟨examplePeer, .tcp, 22⟩ = true := by
  have h : (match nRun fwConf (TSys.start fwStarted 0) twice with
      | some s => decide (s.conns.map repliedOp = [some .Nack, some .Ack]) && s.fw.leases.isEmpty && s.holder.isNone && decide (s.maint = .away) &&
          chainAccepts fwNames s.kernel ⟨examplePeer, .tcp, 22⟩
      | none => false) = true := by decide +kernel
  split at h
  · rename_i s hs
    simp only [Bool.and_eq_true, decide_eq_true_eq, List.isEmpty_iff] at h
    exact ⟨s, nRun_steps (by simp [twice]) hs, h.1.1.1.1, h.1.1.1.2, h.1.1.2, h.1.2, h.2⟩
  · cases h

/-- The maintenance's deletion takes effect and is reported as failed, so the chain is rebuilt; meanwhile the granted port is closed, another stays open. -/
example : ∃ s, NSteps fwConf (fun w => w = .maint) (OwnUnchanged fwNames) (TSys.start fwStarted 0) s ∧ s.conns.map repliedOp = [some .Ack, some .Ack] ∧
    s.fw.leases.length = 1 ∧ s.maint = .away ∧ chainAccepts fwNames s.kernel ⟨examplePeer, .tcp, 22⟩ = false ∧
    chainAccepts fwNames s.kernel ⟨examplePeer, .udp, 443⟩ = true := by
  have h : (match (tRun fwConf (TSys.start fwStarted 0) [.message (.msg (FwMessage.newOpen examplePeer .Tcp 22)), .lockConn 0, .nft true, .done, .tick (500 * second),
        .message (.msg (FwMessage.newOpen examplePeer .Udp 443)), .lockConn 1, .nft true, .done, .tick (700 * second), .maintTick, .lockMaint, .nft true]) with
      | some s1 => decide ((s1.holder.map (·.who)) = some .maint) && (match nftLost s1 with
        | some s2 => (match tRun fwConf s2 [.nft true, .done] with
          | some s => decide (s.conns.map repliedOp = [some .Ack, some .Ack]) && decide (s.fw.leases.length = 1) && decide (s.maint = .away) &&
              !chainAccepts fwNames s.kernel ⟨examplePeer, .tcp, 22⟩ && chainAccepts fwNames s.kernel ⟨examplePeer, .udp, 443⟩
          | none => false)
        | none => false)
      | none => false) = true := by decide +kernel
  split at h
  · rename_i s1 hs1
    rw [Bool.and_eq_true] at h
    obtain ⟨hw, h⟩ := h
    split at h
    · rename_i s2 hs2
      split at h
      · rename_i s hs
        simp only [Bool.and_eq_true, decide_eq_true_eq, Bool.not_eq_true'] at h hw
        refine ⟨s, NSteps.trans' (.step (NSteps.ofT (tRun_steps (by simp) hs1)) ?_) (NSteps.ofT (tRun_steps (by simp) hs)), h.1.1.1.1, h.1.1.1.2, h.1.1.2, h.1.2, h.2⟩
        unfold nftLost at hs2
        split at hs2
        · rename_i hc
          split at hs2
          · rename_i who since cmds k h1
            rw [h1] at hw
            cases hw
            split at hs2
            · rename_i h2; cases hs2; exact .lost hc h1 rfl h2
            · cases hs2
          · cases hs2
        · cases hs2
      · cases h
    · cases h
  · cases h

/-- A wrong report, then a shutdown: it closes what nobody knows of. -/
example : ∃ s since fw, NSteps fwConf (fun _ => True) (OwnUnchanged fwNames) (TSys.start fwStarted 0) s ∧ s.holder = some ⟨.main, since, .ret (.ok ()) fw⟩ ∧
    s.conns.map repliedOp = [some .Nack] := by
  have h : (match nRun fwConf (TSys.start fwStarted 0) [some (.message (.msg (FwMessage.newOpen examplePeer .Tcp 22))), some (.lockConn 0), none, some .done,
        some .leave, some .lockMain, some (.nft true)] with
      | some s => (match s.holder with
        | some ⟨.main, _, .ret (.ok ()) _⟩ => decide (s.conns.map repliedOp = [some .Nack])
        | _ => false)
      | none => false) = true := by decide +kernel
  split at h
  · rename_i s hs
    split at h
    · rename_i since fw hh
      exact ⟨s, since, fw, nRun_steps (by simp) hs, hh, by simpa using h⟩
    · cases h
  · cases h

end Letmein.Props
