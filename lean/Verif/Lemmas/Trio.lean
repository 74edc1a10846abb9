import Verif.Model.Trio
import Verif.Props.Firewall
import Verif.Props.Client

/-!
# Lemmas about the composition of client, letmeind and letmeinfwd
-/

namespace Letmein

open Prog Spec Props

/-! ### letmeinfwd, also after a failed maintenance -/

/-- Each lease has its rules; after a failed maintenance there may be others. -/
def Backed (conf : Config) (n : NftNames) (s : FwdState) : Prop :=
  s.phase = .running ∨ s.phase = .stopping →
    ∃ want, (ownContents n s.kernel).Perm (wanted conf n s.fw.leases ++ want)

theorem wanted_filter {conf : Config} {n : NftNames} (l : LeaseMap) (f : LeaseId × Lease → Bool) :
    ∃ want, (wanted conf n l).Perm (wanted conf n (l.filter f) ++ want) := by
  refine ⟨(l.filter (fun x => !f x)).flatMap (fun e => leaseContents n.family e.2), ?_⟩
  simp only [wanted, List.append_assoc]
  refine List.Perm.append_left _ ?_
  rw [← List.flatMap_append]
  exact List.Perm.flatMap_right _ (List.filter_append_perm f l).symm

theorem backed_step {conf : Config} {n : NftNames} (hn : ChainOf conf n) {s : FwdState} {g : Grants} (h : FwdInv conf n s g)
    (hb : Backed conf n s) (op : FwdOp) (hf : OpFair n s op) : Backed conf n (fwdStep conf s op).2 := by
  obtain ⟨phase, fw, k⟩ := s
  unfold Backed at hb ⊢
  cases op with
  | foreign k' =>
    simp only [OpFair] at hf
    simp only [fwdStep]
    intro hp
    obtain ⟨w, hw⟩ := hb hp
    exact ⟨w, by simp only [ownContents, hf.own]; exact hw⟩
  | reorder l =>
    simp only [OpFair] at hf
    simp only [fwdStep]
    intro hp
    obtain ⟨w, hw⟩ := hb hp
    exact ⟨w, hw.trans ((wanted_perm hf).symm.append_right _)⟩
  | terminate ok =>
    cases phase with
    | running =>
      simp only [FwdInv] at h
      simp only [fwdStep, NftFirewall.doShutdown, h.2.1, if_false, Bool.false_eq_true,
        fullRebuild_shutdown hn (fw := { leases := [], shutdown := true }) rfl]
      cases ok <;> simp
    | stopping =>
      simp only [FwdInv] at h
      simp only [fwdStep, NftFirewall.doShutdown, h.2.1, if_false, Bool.false_eq_true,
        fullRebuild_shutdown hn (fw := { leases := [], shutdown := true }) rfl]
      cases ok <;> simp
    | stopped => simp [fwdStep]
    | crashed => exact h.elim
  | request rx now ok =>
    have key : (phase = .running ∨ phase = .stopping) → LeasesOk n fw.leases → KernelOk n k → fw.shutdown = false →
        ∃ w, (ownContents n (fwdStep conf ⟨phase, fw, k⟩ (.request rx now ok)).2.kernel).Perm
          (wanted conf n (fwdStep conf ⟨phase, fw, k⟩ (.request rx now ok)).2.fw.leases ++ w) := by
      intro hp h1 h3 h2
      obtain ⟨w, hw⟩ := hb hp
      refine ⟨w, ?_⟩
      rcases request_cases hn h1 h3 h2 rx now ok with ⟨r, reply, he, hnp, _, _⟩ | ⟨a, p, fw', k', _, he, _, _, _, _, _, h9, _⟩
      · rcases hp with rfl | rfl <;> simp only [fwdStep, he] <;> cases r <;> first | exact absurd rfl hnp | exact hw
      · rcases hp with rfl | rfl <;> simp only [fwdStep, he] <;> exact h9 w hw
    cases phase with
    | running => simp only [FwdInv] at h; exact fun _ => key (.inl rfl) h.1 h.2.2.1.ok h.2.1
    | stopping => simp only [FwdInv] at h; exact fun _ => key (.inr rfl) h.1 h.2.2 h.2.1
    | stopped => simp [fwdStep]
    | crashed => exact h.elim
  | maintain now env =>
    obtain ⟨hu, hu'⟩ := hf
    cases phase with
    | running =>
      simp only [FwdInv] at h
      obtain ⟨h1, h2, h3, h4⟩ := h
      obtain ⟨r, k', he, hr⟩ := maintain_cases hn h1 h3 h2 now env hu hu'
      simp only [fwdStep, he]
      rcases hr with ⟨rfl, _, ho⟩ | ⟨rfl, hk⟩
      · intro _
        obtain ⟨w, hw⟩ := wanted_filter (conf := conf) (n := n) fw.leases (fun e => !e.2.isTimedOut now)
        refine ⟨w, ?_⟩
        simp only [ownContents, ho]
        exact h3.rules.trans hw
      · exact fun _ => ⟨[], by simpa using hk.rules⟩
    | stopping => exact hb
    | stopped => simp [fwdStep]
    | crashed => exact h.elim

theorem backed_run {conf : Config} {n : NftNames} (hn : ChainOf conf n) {s : FwdState} {g : Grants} (h : FwdInv conf n s g)
    (hb : Backed conf n s) (ops : List FwdOp) (hf : Fair conf n s ops) : Backed conf n (fwdRun conf s ops).2 := by
  induction ops generalizing s g with
  | nil => exact hb
  | cons op rest ih => exact ih (fwdStep_inv hn h op hf.1) (backed_step hn h hb op hf.1) hf.2

theorem backed_start {conf : Config} {n : NftNames} {s : FwdState} (h : FwdInv conf n s Grants.none)
    (hp : s.phase = .running) : Backed conf n s := by
  unfold FwdInv at h
  rw [hp] at h
  exact fun _ => ⟨[], by simpa using h.2.2.1.rules⟩

/-- There is a lease that lasts until `e` at least. -/
def HasLease (s : FwdState) (a : IpAddr) (p : LeasePort) (e : Nat) : Prop :=
  ∃ l, ((a, p), l) ∈ s.fw.leases ∧ e ≤ l.timeout

theorem hasLease_step {conf : Config} {n : NftNames} (hn : ChainOf conf n) {s : FwdState} {g : Grants} (h : FwdInv conf n s g)
    {a : IpAddr} {p : LeasePort} {t0 : Nat} (hl : HasLease s a p (t0 + conf.nftTimeout)) (op : FwdOp) (hf : OpFair n s op)
    (ht : ∀ t, FwdOp.time op = some t → t0 ≤ t ∧ t < t0 + conf.nftTimeout) (hs : (fwdStep conf s op).2.phase ≠ .stopped) :
    HasLease (fwdStep conf s op).2 a p (t0 + conf.nftTimeout) := by
  obtain ⟨phase, fw, k⟩ := s
  obtain ⟨l, hm, hto⟩ := hl
  cases op with
  | foreign k' => exact ⟨l, hm, hto⟩
  | reorder l' => exact ⟨l, List.Perm.subset (List.Perm.symm hf) hm, hto⟩
  | terminate ok =>
    exfalso
    apply hs
    cases phase with
    | running =>
      simp only [FwdInv] at h
      simp only [fwdStep, NftFirewall.doShutdown, h.2.1, if_false, Bool.false_eq_true,
        fullRebuild_shutdown hn (fw := { leases := [], shutdown := true }) rfl]
      cases ok <;> rfl
    | stopping =>
      simp only [FwdInv] at h
      simp only [fwdStep, NftFirewall.doShutdown, h.2.1, if_false, Bool.false_eq_true,
        fullRebuild_shutdown hn (fw := { leases := [], shutdown := true }) rfl]
      cases ok <;> rfl
    | stopped => rfl
    | crashed => exact h.elim
  | request rx now ok =>
    obtain ⟨ht1, ht2⟩ := ht now rfl
    have key : (phase = .running ∨ phase = .stopping) → LeasesOk n fw.leases → KernelOk n k → fw.shutdown = false →
        HasLease (fwdStep conf ⟨phase, fw, k⟩ (.request rx now ok)).2 a p (t0 + conf.nftTimeout) := by
      intro hp h1 h3 h2
      rcases request_cases hn h1 h3 h2 rx now ok with ⟨r, reply, he, hnp, _, _⟩ | ⟨a', p', fw', k', _, he, _, _, _, h7, _⟩
      · rcases hp with rfl | rfl <;> simp only [fwdStep, he] <;> cases r <;>
          first | exact absurd rfl hnp | exact ⟨l, hm, hto⟩
      · have hx : HasLease ⟨phase, fw', k'⟩ a p (t0 + conf.nftTimeout) := by
          have hr := h7 (a, p)
          by_cases hid : (a, p) = (a', p')
          · obtain ⟨l', hm', ht'⟩ := (hr (now + conf.nftTimeout)).2 (by rw [if_pos hid])
            exact ⟨l', hm', by omega⟩
          · obtain ⟨l', hm', ht'⟩ := (hr l.timeout).2 (by rw [if_neg hid]; exact ⟨l, hm, rfl⟩)
            exact ⟨l', hm', by omega⟩
        rcases hp with rfl | rfl <;> simp only [fwdStep, he] <;> exact hx
    cases phase with
    | running => simp only [FwdInv] at h; exact key (.inl rfl) h.1 h.2.2.1.ok h.2.1
    | stopping => simp only [FwdInv] at h; exact key (.inr rfl) h.1 h.2.2 h.2.1
    | stopped => exact absurd rfl hs
    | crashed => exact h.elim
  | maintain now env =>
    obtain ⟨ht1, ht2⟩ := ht now rfl
    obtain ⟨hu, hu'⟩ := hf
    cases phase with
    | running =>
      simp only [FwdInv] at h
      obtain ⟨h1, h2, h3, h4⟩ := h
      obtain ⟨r, k', he, hr⟩ := maintain_cases hn h1 h3 h2 now env hu hu'
      have hm' : ((a, p), l) ∈ fw.leases.filter (fun e => !e.2.isTimedOut now) := by
        refine List.mem_filter.2 ⟨hm, ?_⟩
        simp [Lease.isTimedOut]
        omega
      simp only [fwdStep, he]
      rcases hr with ⟨rfl, _, _⟩ | ⟨rfl, _⟩ <;> exact ⟨l, hm', hto⟩
    | stopping => exact ⟨l, hm, hto⟩
    | stopped => exact ⟨l, hm, hto⟩
    | crashed => exact h.elim

theorem stopped_stays {conf : Config} {s : FwdState} (h : s.phase = .stopped) (op : FwdOp) :
    (fwdStep conf s op).2.phase = .stopped := by
  obtain ⟨phase, fw, k⟩ := s
  simp only at h
  subst h
  cases op <;> rfl

theorem stopped_run {conf : Config} {s : FwdState} (h : s.phase = .stopped) (ops : List FwdOp) :
    (fwdRun conf s ops).2.phase = .stopped := by
  induction ops generalizing s with
  | nil => exact h
  | cons op rest ih => exact ih (stopped_stays h op)

theorem hasLease_run {conf : Config} {n : NftNames} (hn : ChainOf conf n) {s : FwdState} {g : Grants} (h : FwdInv conf n s g)
    {a : IpAddr} {p : LeasePort} {t0 : Nat} (hl : HasLease s a p (t0 + conf.nftTimeout)) (ops : List FwdOp)
    (hf : Fair conf n s ops) (ht : ∀ op ∈ ops, ∀ t, FwdOp.time op = some t → t0 ≤ t ∧ t < t0 + conf.nftTimeout)
    (hs : (fwdRun conf s ops).2.phase ≠ .stopped) : HasLease (fwdRun conf s ops).2 a p (t0 + conf.nftTimeout) := by
  induction ops generalizing s g with
  | nil => exact hl
  | cons op rest ih =>
    have hs' : (fwdStep conf s op).2.phase ≠ .stopped := fun hx => hs (stopped_run hx rest)
    exact ih (fwdStep_inv hn h op hf.1)
      (hasLease_step hn h hl op hf.1 (ht op (by simp)) hs') hf.2 (fun o ho => ht o (by simp [ho])) hs

/-- A lease of a daemon that has not been shut down is effective. -/
theorem lease_effective {conf : Config} {n : NftNames} {s : FwdState} {g : Grants} (h : FwdInv conf n s g)
    (hb : Backed conf n s) (hs : s.phase ≠ .stopped) {a : IpAddr} {p : LeasePort} {e : Nat} (hl : HasLease s a p e)
    {pkt : Packet} (hc : covers a p pkt) : chainAccepts n s.kernel pkt = true := by
  obtain ⟨phase, fw, k⟩ := s
  obtain ⟨l, hm, _⟩ := hl
  have key : (phase = .running ∨ phase = .stopping) → LeasesOk n fw.leases → chainAccepts n k pkt = true := by
    intro hp h1
    obtain ⟨w, hw⟩ := hb hp
    have hkey := h1.keys _ hm
    have hsup := h1.supp _ hm
    simp only at hkey hsup
    injection hkey with hka hkp
    have := (leaseContents_accept hsup pkt).2 (by rw [← hka, ← hkp]; exact hc)
    rw [chainAccepts_contents, any_perm hw]
    simp only [Bool.and_eq_true, List.any_eq_true] at this ⊢
    obtain ⟨hfs, c, hc1, hc2⟩ := this
    refine ⟨hfs, c, ?_, hc2⟩
    simp only [wanted, List.mem_append, List.mem_flatMap]
    exact .inl (.inr ⟨_, hm, hc1⟩)
  cases phase with
  | running => simp only [FwdInv] at h; exact key (.inl rfl) h.1
  | stopping => simp only [FwdInv] at h; exact key (.inr rfl) h.1
  | stopped => exact absurd rfl hs
  | crashed => exact h.elim

/-- An acknowledged request has its lease. -/
theorem hasLease_ack {conf : Config} {n : NftNames} (hn : ChainOf conf n) {s : FwdState} {g : Grants} (h : FwdInv conf n s g)
    {addr : IpAddr} {pt : PortType} {port : UInt16} {now : Nat} {ok : Bool} {reply : FwMessage}
    (hr : (fwdStep conf s (.request (.msg (FwMessage.newOpen addr pt port)) now ok)).1 = some reply)
    (ha : reply.operation = .Ack) :
    HasLease (fwdStep conf s (.request (.msg (FwMessage.newOpen addr pt port)) now ok)).2 addr (selection pt port)
      (now + conf.nftTimeout) := by
  obtain ⟨phase, fw, k⟩ := s
  have key : (phase = .running ∨ phase = .stopping) → LeasesOk n fw.leases → KernelOk n k → fw.shutdown = false →
      HasLease (fwdStep conf ⟨phase, fw, k⟩ (.request (.msg (FwMessage.newOpen addr pt port)) now ok)).2 addr (selection pt port)
        (now + conf.nftTimeout) := by
    intro hp h1 h3 h2
    rcases request_cases hn h1 h3 h2 (.msg (FwMessage.newOpen addr pt port)) now ok with
      ⟨r, rep, he, hnp, _, hnack⟩ | ⟨a', p', fw', k', hdec, he, _, _, _, h7, _⟩
    · exfalso
      have hrep : rep = some reply := by
        rcases hp with rfl | rfl <;> simp only [fwdStep, he] at hr <;> cases r <;> first | exact absurd rfl hnp | exact hr
      have := hnack reply hrep
      rw [ha] at this
      cases this
    · obtain ⟨m, t, port', hm, _, ha', hp', hsel, _⟩ := fwdDecide_open hdec
      injection hm with hm
      subst hm
      rw [newOpen_getAddr] at ha'
      injection ha' with ha'
      have hgp : (FwMessage.newOpen addr pt port).getPort = some (pt, port) := rfl
      rw [hgp] at hp'
      injection hp' with hp'
      injection hp' with e1 e2
      subst ha' e1 e2 hsel
      obtain ⟨l, hm, ht⟩ := (h7 (addr, selection pt port) (now + conf.nftTimeout)).2 (by rw [if_pos rfl])
      rcases hp with rfl | rfl <;> simp only [fwdStep, he] <;> exact ⟨l, hm, by omega⟩
  cases phase with
  | running => simp only [FwdInv] at h; exact key (.inl rfl) h.1 h.2.2.1.ok h.2.1
  | stopping => simp only [FwdInv] at h; exact key (.inr rfl) h.1 h.2.2 h.2.1
  | stopped => simp [fwdStep] at hr
  | crashed => exact h.elim

/-! ### Messages -/

theorem linkRun_append {fconf : Config} {L L' : Links} {a b : List TrioEv} (h : linkRun fconf L (a ++ b) = some L') :
    ∃ M, linkRun fconf L a = some M ∧ linkRun fconf M b = some L' := by
  induction a generalizing L with
  | nil => exact ⟨L, rfl, h⟩
  | cons e a ih =>
    simp only [List.cons_append, linkRun] at h ⊢
    cases hs : linkStep fconf L e with
    | none => rw [hs] at h; cases h
    | some M => rw [hs] at h; exact ih h

/-- The state of letmeinfwd follows its operations. -/
theorem linkStep_fwd {fconf : Config} {L L' : Links} {e : TrioEv} (h : linkStep fconf L e = some L') :
    L'.fwd = (fwdRun fconf L.fwd (fwdOps [e])).2 := by
  unfold linkStep at h
  split at h <;> simp only [fwdOps, List.filterMap_cons, List.filterMap_nil, fwdRun]
  all_goals first
    | (injection h with h; subst h; (try split) <;> rfl)
    | (split at h <;> first | (injection h with h; subst h; rfl) | cases h)
    | (obtain ⟨q, _, rfl⟩ := Option.map_eq_some_iff.1 h; rfl)
    | cases h

theorem linkRun_fwd {fconf : Config} {L L' : Links} {evs : List TrioEv} (h : linkRun fconf L evs = some L') :
    L'.fwd = (fwdRun fconf L.fwd (fwdOps evs)).2 := by
  induction evs generalizing L with
  | nil => injection h with h; subst h; rfl
  | cons e rest ih =>
    simp only [linkRun] at h
    cases hs : linkStep fconf L e with
    | none => rw [hs] at h; cases h
    | some M =>
      rw [hs] at h
      rw [ih h, linkStep_fwd hs]
      have : fwdOps (e :: rest) = fwdOps [e] ++ fwdOps rest := by
        rw [fwdOps, fwdOps, fwdOps, ← List.filterMap_append]; rfl
      rw [this, fwdRun_append]

/-- The messages received from letmeinfwd. -/
def fwReplies (tr : List Ev) : List FwMessage := tr.filterMap (fun | ⟨.fwRecv, .msg m⟩ => some m | _ => none)

/-- `reply` was given by letmeinfwd to a request of the session. -/
def RepliedTo (fconf : Config) (s0 : FwdState) (done : List TrioEv) (reply : FwMessage) : Prop :=
  ∃ a b m now ok, done = a ++ .fwd (.request (.msg m) now ok) true :: b ∧ m ∈ fwRequests (serverEvs done) ∧
    (fwdStep fconf (fwdRun fconf s0 (fwdOps a)).2 (.request (.msg m) now ok)).1 = some reply

/-- Nothing is invented. -/
structure LinkInv (fconf : Config) (s0 : FwdState) (done : List TrioEv) (L : Links) : Prop where
  s2c : ∀ m ∈ L.s2c, m ∈ sent (serverEvs done)
  c2s : ∀ m ∈ L.c2s, m ∈ sent (clientEvs done)
  crecv : ∀ m ∈ received (clientEvs done), m ∈ sent (serverEvs done)
  srecv : ∀ m ∈ received (serverEvs done), m ∈ sent (clientEvs done)
  toFw : ∀ m ∈ L.toFw, m ∈ fwRequests (serverEvs done)
  fromFw : ∀ m ∈ L.fromFw, RepliedTo fconf s0 done m
  frecv : ∀ m ∈ fwReplies (serverEvs done), RepliedTo fconf s0 done m
  fwd : L.fwd = (fwdRun fconf s0 (fwdOps done)).2

theorem RepliedTo.mono {fconf : Config} {s0 : FwdState} {done : List TrioEv} {m : FwMessage} (h : RepliedTo fconf s0 done m)
    (e : TrioEv) : RepliedTo fconf s0 (done ++ [e]) m := by
  obtain ⟨a, b, x, now, ok, rfl, h2, h3⟩ := h
  refine ⟨a, b ++ [e], x, now, ok, by simp, ?_, h3⟩
  simp only [fwRequests, serverEvs, List.filterMap_append, List.mem_append] at h2 ⊢
  exact .inl h2

theorem takeHead_mem {α : Type} [DecidableEq α] {q q' : List α} {m : α} (h : takeHead q m = some q') :
    m ∈ q ∧ ∀ x ∈ q', x ∈ q := by
  unfold takeHead at h
  cases q with
  | nil => cases h
  | cons y rest =>
    simp only at h
    by_cases hy : y = m
    · rw [if_pos hy] at h
      injection h with h
      subst h hy
      exact ⟨by simp, fun x hx => by simp [hx]⟩
    · rw [if_neg hy] at h; cases h

theorem linkInv_step {fconf : Config} {s0 : FwdState} {done : List TrioEv} {L L' : Links} {e : TrioEv}
    (h : LinkInv fconf s0 done L) (hs : linkStep fconf L e = some L') : LinkInv fconf s0 (done ++ [e]) L' := by
  have hfwd : L'.fwd = (fwdRun fconf s0 (fwdOps (done ++ [e]))).2 := by
    rw [linkStep_fwd hs, h.fwd]
    have : fwdOps (done ++ [e]) = fwdOps done ++ fwdOps [e] := by simp only [fwdOps, List.filterMap_append]
    rw [this, fwdRun_append]
  have hc : ∀ x ∈ sent (clientEvs done), x ∈ sent (clientEvs (done ++ [e])) := by
    intro x hx
    simp only [sent, clientEvs, List.filterMap_append, List.mem_append] at hx ⊢
    exact .inl hx
  have hv : ∀ x ∈ sent (serverEvs done), x ∈ sent (serverEvs (done ++ [e])) := by
    intro x hx
    simp only [sent, serverEvs, List.filterMap_append, List.mem_append] at hx ⊢
    exact .inl hx
  have hq : ∀ x ∈ fwRequests (serverEvs done), x ∈ fwRequests (serverEvs (done ++ [e])) := by
    intro x hx
    simp only [fwRequests, serverEvs, List.filterMap_append, List.mem_append] at hx ⊢
    exact .inl hx
  -- what the new event adds
  have main : (∀ m ∈ L'.s2c, m ∈ L.s2c ∨ m ∈ sent (serverEvs [e])) ∧ (∀ m ∈ L'.c2s, m ∈ L.c2s ∨ m ∈ sent (clientEvs [e])) ∧
      (∀ m ∈ received (clientEvs [e]), m ∈ L.s2c) ∧ (∀ m ∈ received (serverEvs [e]), m ∈ L.c2s) ∧
      (∀ m ∈ L'.toFw, m ∈ L.toFw ∨ m ∈ fwRequests (serverEvs [e])) ∧
      (∀ m ∈ L'.fromFw, m ∈ L.fromFw ∨ ∃ q now ok, e = .fwd (.request (.msg q) now ok) true ∧ q ∈ L.toFw ∧
        (fwdStep fconf L.fwd (.request (.msg q) now ok)).1 = some m) ∧
      (∀ m ∈ fwReplies (serverEvs [e]), m ∈ L.fromFw) := by
    unfold linkStep at hs
    split at hs
    case h_1 m x d =>
      injection hs with hs; subst hs
      cases d <;> simp [sent, received, clientEvs, serverEvs, fwRequests, fwReplies, recvd, sentMsg] <;> (intro _ hy; exact .inl hy)
    case h_2 m x =>
      by_cases hm : m ∈ L.s2c
      · rw [if_pos hm] at hs
        injection hs with hs; subst hs
        simp [sent, received, clientEvs, serverEvs, fwRequests, fwReplies, recvd, sentMsg, hm]
      · rw [if_neg hm] at hs; cases hs
    case h_3 ev d h1 h2 =>
      injection hs with hs; subst hs
      have hr : recvd ev = none := by
        unfold recvd; split
        · exact (h2 _ rfl).elim
        · rfl
      simp [sent, received, clientEvs, serverEvs, fwRequests, fwReplies, hr]
      exact fun _ hy => .inl hy
    case h_4 m x d =>
      injection hs with hs; subst hs
      cases d <;> simp [sent, received, clientEvs, serverEvs, fwRequests, fwReplies, recvd, sentMsg, fwReq] <;>
        (intro _ hy; exact .inl hy)
    case h_5 m x =>
      by_cases hm : m ∈ L.c2s
      · rw [if_pos hm] at hs
        injection hs with hs; subst hs
        simp [sent, received, clientEvs, serverEvs, fwRequests, fwReplies, recvd, sentMsg, fwReq, hm]
      · rw [if_neg hm] at hs; cases hs
    case h_6 m x d =>
      injection hs with hs; subst hs
      cases d <;> simp [sent, received, clientEvs, serverEvs, fwRequests, fwReplies, recvd, sentMsg, fwReq] <;>
        (intro _ hy; exact .inl hy)
    case h_7 m x =>
      obtain ⟨q, hq, rfl⟩ := Option.map_eq_some_iff.1 hs
      obtain ⟨hm, hsub⟩ := takeHead_mem hq
      simp only [sent, received, clientEvs, serverEvs, fwRequests, fwReplies, recvd, sentMsg, fwReq, List.filterMap_cons,
        List.filterMap_nil]
      refine ⟨fun _ h => .inl h, fun _ h => .inl h, by simp, by simp, fun _ h => .inl h, fun y hy => .inl (hsub y hy), ?_⟩
      intro y hy
      simp at hy
      rw [hy]; exact hm
    case h_8 ev d h1 h2 h3 h4 =>
      injection hs with hs; subst hs
      have hr : recvd ev = none := by
        unfold recvd; split
        · exact (h2 _ rfl).elim
        · rfl
      have hf : fwReplies [ev] = [] := by
        unfold fwReplies
        simp only [List.filterMap_cons, List.filterMap_nil]
      simp only [fwReplies] at hf
      refine ⟨fun _ hy => .inl hy, fun _ hy => .inl hy, by simp [received, clientEvs], by simp [received, serverEvs, hr],
        fun _ hy => .inl hy, fun _ hy => .inl hy, ?_⟩
      have : serverEvs [TrioEv.server ev d] = [ev] := rfl
      rw [this, fwReplies, hf]
      simp
    case h_9 op =>
      injection hs with hs; subst hs
      simp [sent, received, clientEvs, serverEvs, fwRequests, fwReplies]
    case h_10 m now ok =>
      obtain ⟨q, hq, rfl⟩ := Option.map_eq_some_iff.1 hs
      obtain ⟨hm, hsub⟩ := takeHead_mem hq
      simp only [sent, received, clientEvs, serverEvs, fwRequests, fwReplies, List.filterMap_cons, List.filterMap_nil]
      refine ⟨fun _ h => .inl h, fun _ h => .inl h, by simp, by simp, fun y hy => .inl (hsub y hy), ?_, by simp⟩
      intro y hy
      simp only [List.mem_append, Option.mem_toList] at hy
      rcases hy with hy | hy
      · exact .inl hy
      · exact .inr ⟨m, now, ok, rfl, hm, hy⟩
    case h_11 => cases hs
  obtain ⟨m1, m2, m3, m4, m5, m6, m7⟩ := main
  have sp : ∀ (f : Ev → Option Message) x, x ∈ (serverEvs (done ++ [e])).filterMap f → x ∈ (serverEvs done).filterMap f ∨
      x ∈ (serverEvs [e]).filterMap f := by
    intro f x hx
    simpa only [serverEvs, List.filterMap_append, List.mem_append] using hx
  have cp : ∀ (f : Ev → Option Message) x, x ∈ (clientEvs (done ++ [e])).filterMap f → x ∈ (clientEvs done).filterMap f ∨
      x ∈ (clientEvs [e]).filterMap f := by
    intro f x hx
    simpa only [clientEvs, List.filterMap_append, List.mem_append] using hx
  have hv' : ∀ x ∈ sent (serverEvs [e]), x ∈ sent (serverEvs (done ++ [e])) := by
    intro x hx
    simp only [sent, serverEvs, List.filterMap_append, List.mem_append] at hx ⊢
    exact .inr hx
  have hc' : ∀ x ∈ sent (clientEvs [e]), x ∈ sent (clientEvs (done ++ [e])) := by
    intro x hx
    simp only [sent, clientEvs, List.filterMap_append, List.mem_append] at hx ⊢
    exact .inr hx
  refine ⟨?_, ?_, ?_, ?_, ?_, ?_, ?_, hfwd⟩
  · exact fun m hm => (m1 m hm).elim (fun x => hv m (h.s2c m x)) (hv' m)
  · exact fun m hm => (m2 m hm).elim (fun x => hc m (h.c2s m x)) (hc' m)
  · exact fun m hm => (cp _ m hm).elim (fun x => hv m (h.crecv m x)) (fun x => hv m (h.s2c m (m3 m x)))
  · exact fun m hm => (sp _ m hm).elim (fun x => hc m (h.srecv m x)) (fun x => hc m (h.c2s m (m4 m x)))
  · intro m hm
    rcases m5 m hm with x | x
    · exact hq m (h.toFw m x)
    · simp only [fwRequests, serverEvs, List.filterMap_append, List.mem_append] at x ⊢
      exact .inr x
  · intro m hm
    rcases m6 m hm with x | ⟨q, now, ok, rfl, hx, hr⟩
    · exact (h.fromFw m x).mono e
    · exact ⟨done, [], q, now, ok, by simp, hq q (h.toFw q hx), by rw [← h.fwd]; exact hr⟩
  · intro m hm
    simp only [fwReplies, serverEvs, List.filterMap_append, List.mem_append] at hm
    rcases hm with x | x
    · exact (h.frecv m x).mono e
    · exact (h.fromFw m (m7 m x)).mono e

theorem linkInv_run {fconf : Config} {s0 : FwdState} {done : List TrioEv} {L L' : Links} {evs : List TrioEv}
    (h : LinkInv fconf s0 done L) (hs : linkRun fconf L evs = some L') : LinkInv fconf s0 (done ++ evs) L' := by
  induction evs generalizing L done with
  | nil => injection hs with hs; subst hs; simpa using h
  | cons e rest ih =>
    simp only [linkRun] at hs
    cases hx : linkStep fconf L e with
    | none => rw [hx] at hs; cases hs
    | some M =>
      rw [hx] at hs
      have := ih (linkInv_step h hx) hs
      simpa using this

theorem linkInv_init (fconf : Config) (s0 : FwdState) : LinkInv fconf s0 [] ⟨[], [], [], [], s0⟩ := by
  constructor <;> simp [clientEvs, serverEvs, received, sent, fwReplies, fwdOps, fwdRun]

end Letmein
