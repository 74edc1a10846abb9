import Verif.Props.Firewall

/-!
# More about the firewall daemon: C17, C20 and C23 in every phase of its life
-/

namespace Letmein.Props

open Letmein Prog Spec

/-! ## C17: valid requests are served -/

theorem resourceIdByPort_of_mem {port : UInt16} {rs : List (ResourceId × Resource)} (h : ∃ e ∈ rs, e.2.port = port) :
    (resourceIdByPort port none rs).isSome = true := by
  induction rs with
  | nil => obtain ⟨e, he, _⟩ := h; cases he
  | cons e rs ih =>
    obtain ⟨k, v⟩ := e
    rw [resourceIdByPort]
    by_cases hp : v.port = port
    · rw [if_pos hp]; rfl
    · rw [if_neg hp]
      obtain ⟨e, he, hpe⟩ := h
      rcases List.mem_cons.1 he with rfl | he
      · exact absurd hpe hp
      · exact ih ⟨e, he, hpe⟩

/-- **C17** (completeness). An Open for a proper address the chain can match and for the port of some resource other than the control
port is acknowledged by every running daemon whose `nft` works. -/
theorem C17_valid_requests_acked (conf : Config) (n : NftNames) (hn : ChainOf conf n) (k0 : Kernel) (ok0 : Bool) (s0 : FwdState)
    (h0 : fwdStart conf k0 ok0 = some s0) (ops : List FwdOp) (hf : Fair conf n s0 ops)
    (hr : (fwdRun conf s0 ops).2.phase = .running ∨ (fwdRun conf s0 ops).2.phase = .stopping)
    (addr : IpAddr) (t : PortType) (port : UInt16) (hm : matchable n.family addr = true)
    (h1 : addr ≠ .v4 (Arr.replicate 4 0)) (h2 : addr ≠ .v4 (Arr.replicate 4 0xFF))
    (h3 : addr ≠ .v6 (Arr.replicate 16 0)) (h4 : addr ≠ .v6 (Arr.replicate 16 0xFF))
    (h5 : ∃ e ∈ conf.resources, e.2.port = port) (h6 : port ≠ conf.port.port) (now : Nat) :
    (fwdStep conf (fwdRun conf s0 ops).2 (.request (.msg (FwMessage.newOpen addr t port)) now true)).1 = some FwMessage.newAck := by
  obtain ⟨_, n', hn', hi⟩ := fwdStart_inv h0
  obtain rfl := chainOf_unique hn hn'
  have h := fwdRun_inv hn hi ops hf
  generalize fwdRun conf s0 ops = q at *
  obtain ⟨hist, s⟩ := q
  obtain ⟨phase, fw, k⟩ := s
  simp only at hr h ⊢
  have hl : LeasesOk n fw.leases ∧ fw.shutdown = false ∧ KernelOk n k := by
    rcases hr with hr | hr <;> subst hr <;> simp only [FwdInv] at h
    · exact ⟨h.1, h.2.1, h.2.2.1.ok⟩
    · exact h
  have hck : addrCheck addr = true := by
    cases addr <;> simp_all [addrCheck]
  have hdec : fwdDecide conf (.msg (FwMessage.newOpen addr t port)) = .openPort addr (selection t port) := by
    have hres : (conf.resourceIdByPort port none).isNone = false := by
      have := resourceIdByPort_of_mem h5
      show (Letmein.resourceIdByPort port none conf.resources).isNone = false
      cases hx : Letmein.resourceIdByPort port none conf.resources with
      | none => rw [hx] at this; cases this
      | some => rfl
    have hga := newOpen_getAddr addr t port
    have hgp : (FwMessage.newOpen addr t port).getPort = some (t, port) := rfl
    have hop : (FwMessage.newOpen addr t port).operation = .Open := rfl
    simp only [fwdDecide, hop, hga, hgp, hck, hres, if_neg h6, Bool.not_true, Bool.false_eq_true, if_false]
    cases t <;> rfl
  have hp' : conf.port.port ≠ (selection t port).port := by rw [selection_port]; exact fun hx => h6 hx.symm
  have hsup := (supported_iff n.family addr).2 hm
  have hh : ∃ fw' k', handleMessage conf fw k (.msg (FwMessage.newOpen addr t port)) now true = (.ok (), some FwMessage.newAck, fw', k') := by
    unfold handleMessage
    rw [hdec]
    rcases openPort_cases hn hl.1 hl.2.2 hl.2.1 now addr (selection t port) true hp' with ⟨fw', k', e1, _⟩ | ⟨_, _, hno⟩
    · simp only [e1]; exact ⟨_, _, rfl⟩
    · rcases hno with hno | hno
      · cases hno
      · exact absurd hsup hno
  obtain ⟨fw', k', hh⟩ := hh
  rcases hr with hr | hr <;> subst hr <;> simp only [fwdStep, hh]

/-- **C17** (answers). As long as the daemon has not been shut down, every Open is answered, with Ack or Nack. -/
theorem C17_open_answered (conf : Config) (k0 : Kernel) (ok0 : Bool) (s0 : FwdState) (h0 : fwdStart conf k0 ok0 = some s0)
    (ops : List FwdOp) (hf : ∃ n, Fair conf n s0 ops ∧ ChainOf conf n)
    (hr : (fwdRun conf s0 ops).2.phase = .running ∨ (fwdRun conf s0 ops).2.phase = .stopping)
    (m : FwMessage) (hm : m.operation = .Open) (now : Nat) (nftOk : Bool) :
    ∃ r, (fwdStep conf (fwdRun conf s0 ops).2 (.request (.msg m) now nftOk)).1 = some r ∧
      (r.operation = .Ack ∨ r.operation = .Nack) := by
  obtain ⟨n, hf, hn⟩ := hf
  obtain ⟨_, n', hn', hi⟩ := fwdStart_inv h0
  obtain rfl := chainOf_unique hn hn'
  have h := fwdRun_inv hn hi ops hf
  generalize fwdRun conf s0 ops = q at *
  obtain ⟨hist, s⟩ := q
  obtain ⟨phase, fw, k⟩ := s
  simp only at hr h ⊢
  have hd : fw.shutdown = false := by
    rcases hr with hr | hr <;> subst hr <;> simp only [FwdInv] at h <;> exact h.2.1
  have hh : ∃ r reply fw' k', handleMessage conf fw k (.msg m) now nftOk = (r, some reply, fw', k') ∧ r ≠ .panic ∧
      (reply.operation = .Ack ∨ reply.operation = .Nack) := by
    unfold handleMessage
    cases hdec : fwdDecide conf (.msg m) with
    | silent =>
      exfalso
      unfold fwdDecide at hdec
      simp only [hm] at hdec
      repeat' split at hdec
      all_goals cases hdec
    | nack => exact ⟨_, _, _, _, rfl, by simp, .inr rfl⟩
    | openPort a p =>
      simp only
      obtain ⟨m', t, port, _, _, _, _, hsel, _, _, hne⟩ := fwdDecide_open hdec
      have hp' : conf.port.port ≠ p.port := by rw [hsel, selection_port]; exact fun hx => hne hx.symm
      cases ho : fw.openPort conf k now a p nftOk with
      | mk r fk =>
        obtain ⟨fw', k'⟩ := fk
        cases r with
        | ok u => exact ⟨_, _, _, _, rfl, by simp, .inl rfl⟩
        | err => exact ⟨_, _, _, _, rfl, by simp, .inr rfl⟩
        | panic =>
          have := openPort_not_panic (conf := conf) hd k now a hp' nftOk
          rw [ho] at this
          exact absurd rfl this.1
  obtain ⟨r, reply, fw', k', hh, hnp, hop⟩ := hh
  refine ⟨reply, ?_, hop⟩
  rcases hr with hr | hr <;> subst hr <;> simp only [fwdStep, hh] <;> cases r <;> first | exact absurd rfl hnp | rfl

/-! ## C23: which chain -/

/-- **C23** (start-up). The daemon starts if and only if `nft` works and the configuration names a chain: one of the three families, a
table and a chain name. -/
theorem C23_start_iff (conf : Config) (k : Kernel) (nftOk : Bool) :
    (∃ s, fwdStart conf k nftOk = some s) ↔ nftOk = true ∧ ∃ n, ChainOf conf n := by
  constructor
  · rintro ⟨s, h⟩
    refine ⟨?_, ?_⟩
    · cases nftOk with
      | true => rfl
      | false =>
        exfalso
        obtain ⟨_, n, hn, _⟩ := fwdStart_inv h
        unfold fwdStart NftFirewall.new at h
        rcases fullRebuild_cases hn (fw := { leases := [], shutdown := false }) (by simp) rfl k false with ⟨hx, _⟩ | hx
        · cases hx
        · simp only [hx] at h; cases h
    · obtain ⟨_, n, hn, _⟩ := fwdStart_inv h
      exact ⟨n, hn⟩
  · rintro ⟨rfl, n, hn⟩
    have hok := fullRebuild_ok hn (fw := { leases := [], shutdown := false }) (by simp) rfl k
    unfold fwdStart NftFirewall.new
    simp only
    cases hx : fullRebuild conf { leases := [], shutdown := false } k true with
    | mk r k' =>
      rw [hx] at hok
      simp only at hok
      subst hok
      exact ⟨_, rfl⟩

/-! ## C20: nothing is ever open that nobody asked for -/

/-- The history contains an acknowledged request for the address and port selection. -/
def Asked (h : List (FwdOp × Option FwMessage)) (a : IpAddr) (p : LeasePort) : Prop :=
  ∃ x ∈ h, ∃ to, granted x.1 x.2 = some (a, p, to)

/-- The content of a rule that belongs to an acknowledged request. -/
def RuleAsked (n : NftNames) (h : List (FwdOp × Option FwMessage)) (c : Content) : Prop :=
  ∃ a p, Asked h a p ∧ Supported n.family a ∧ c ∈ leaseContents n.family ⟨a, p, 0⟩

/-- In every phase: each rule is a control rule or was asked for, and so was each lease. -/
structure OriginInv (conf : Config) (n : NftNames) (s : FwdState) (h : List (FwdOp × Option FwMessage)) : Prop where
  rules : ∀ c ∈ ownContents n s.kernel, c ∈ ctrlContents conf ∨ RuleAsked n h c
  leases : ∀ e ∈ s.fw.leases, Asked h e.1.1 e.1.2 ∧ Supported n.family e.1.1

theorem Asked.mono {h : List (FwdOp × Option FwMessage)} {a : IpAddr} {p : LeasePort} (x : FwdOp × Option FwMessage)
    (ha : Asked h a p) : Asked (h ++ [x]) a p := by
  obtain ⟨y, hy, to, hg⟩ := ha
  exact ⟨y, by simp [hy], to, hg⟩

theorem OriginInv.mono {conf : Config} {n : NftNames} {s : FwdState} {h : List (FwdOp × Option FwMessage)} (x : FwdOp × Option FwMessage)
    (hi : OriginInv conf n s h) : OriginInv conf n s (h ++ [x]) :=
  ⟨fun c hc => (hi.rules c hc).imp id (fun ⟨a, p, h1, h2, h3⟩ => ⟨a, p, h1.mono x, h2, h3⟩),
    fun e he => ⟨(hi.leases e he).1.mono x, (hi.leases e he).2⟩⟩

theorem ownContents_congr {n : NftNames} {k k' : Kernel} (h : ownRules n k' = ownRules n k) : ownContents n k' = ownContents n k := by
  rw [ownContents, ownContents, h]

/-- Only the id of a lease matters for its rules. -/
theorem leaseContents_time (f : NfFamily) (l : Lease) : leaseContents f l = leaseContents f ⟨l.addr, l.port, 0⟩ := rfl

theorem origin_of_chainOk {conf : Config} {n : NftNames} {fw : NftFirewall} {k : Kernel} {ph : FwdPhase}
    {h : List (FwdOp × Option FwMessage)} (hl : LeasesOk n fw.leases) (hc : ChainOk conf n fw.leases k)
    (ha : ∀ e ∈ fw.leases, Asked h e.1.1 e.1.2 ∧ Supported n.family e.1.1) : OriginInv conf n ⟨ph, fw, k⟩ h := by
  refine ⟨?_, ha⟩
  intro c hcm
  have := hc.rules.subset hcm
  rcases List.mem_append.1 this with h1 | h1
  · exact .inl h1
  · obtain ⟨e, he, hce⟩ := List.mem_flatMap.1 h1
    refine .inr ⟨e.2.addr, e.2.port, ?_, hl.supp e he, hce⟩
    have := ha e he
    rw [hl.keys e he] at this
    exact this.1

theorem origin_request {conf : Config} {n : NftNames} (hn : ChainOf conf n) {fw : NftFirewall} {k : Kernel} {ph : FwdPhase}
    (hl : LeasesOk n fw.leases) (hc : KernelOk n k) (hd : fw.shutdown = false) (rx : FwRecvOut) (now : Nat) (ok : Bool)
    {h : List (FwdOp × Option FwMessage)} (hi : OriginInv conf n ⟨ph, fw, k⟩ h) :
    ∃ r reply fw' k', handleMessage conf fw k rx now ok = (r, reply, fw', k') ∧ r ≠ .panic ∧
      OriginInv conf n ⟨ph, fw', k'⟩ (h ++ [(.request rx now ok, reply)]) := by
  rcases request_cases hn hl hc hd rx now ok with ⟨r, reply, he, hnp, _, _⟩ | ⟨a, p, fw', k', _, he, hg, h5, _, h7, _, _, _, hs, h10⟩
  · exact ⟨r, reply, fw, k, he, hnp, hi.mono _⟩
  · refine ⟨_, _, fw', k', he, by simp, ?_, ?_⟩
    · intro c hcm
      rcases h10 c hcm with hc' | hc'
      · exact (hi.mono _).rules c hc'
      · exact .inr ⟨a, p, ⟨(.request rx now ok, some FwMessage.newAck), by simp, now, hg⟩, hs, hc'⟩
    · intro e hem
      by_cases hid : e.1 = (a, p)
      · rw [hid]
        exact ⟨⟨(.request rx now ok, some FwMessage.newAck), by simp, now, hg⟩, hs⟩
      · have := (h7 e.1 e.2.timeout).1 ⟨e.2, hem, rfl⟩
        rw [if_neg hid] at this
        obtain ⟨l, hm, _⟩ := this
        exact (hi.mono _).leases (e.1, l) hm

theorem origin_step {conf : Config} {n : NftNames} (hn : ChainOf conf n) {s : FwdState} {g : Grants} (hi : FwdInv conf n s g)
    {h : List (FwdOp × Option FwMessage)} (ho : OriginInv conf n s h) (op : FwdOp) (hf : OpFair n s op) :
    OriginInv conf n (fwdStep conf s op).2 (h ++ [(op, (fwdStep conf s op).1)]) := by
  obtain ⟨phase, fw, k⟩ := s
  cases op with
  | foreign k' => exact ⟨fun c hc => (ho.mono _).rules c (by rwa [← ownContents_congr hf.own]), (ho.mono _).leases⟩
  | reorder l => exact ⟨(ho.mono _).rules, fun e he => (ho.mono _).leases e (hf.subset he)⟩
  | terminate ok =>
    have key : fw.shutdown = false → OriginInv conf n
        ⟨.stopped, { leases := [], shutdown := true }, (fullRebuild conf { leases := [], shutdown := true } k ok).2⟩
        (h ++ [(.terminate ok, none)]) := by
      intro hd
      rw [fullRebuild_shutdown hn rfl]
      refine ⟨?_, by simp⟩
      cases ok with
      | true =>
        intro c hc
        have hc : c ∈ ownContents n (flushed n k) := hc
        simp [ownContents, flushed_own] at hc
      | false => exact (ho.mono _).rules
    cases phase with
    | stopped => exact ho.mono _
    | crashed => exact ho.mono _
    | running =>
      simp only [FwdInv] at hi
      have := key hi.2.1
      simp only [fwdStep, NftFirewall.doShutdown, hi.2.1, Bool.false_eq_true, if_false]
      cases hx : (fullRebuild conf { leases := [], shutdown := true } k ok).1 with
      | panic => exact absurd hx (fullRebuild_not_panic _ _ _ _)
      | ok u => exact this
      | err => exact this
    | stopping =>
      simp only [FwdInv] at hi
      have := key hi.2.1
      simp only [fwdStep, NftFirewall.doShutdown, hi.2.1, Bool.false_eq_true, if_false]
      cases hx : (fullRebuild conf { leases := [], shutdown := true } k ok).1 with
      | panic => exact absurd hx (fullRebuild_not_panic _ _ _ _)
      | ok u => exact this
      | err => exact this
  | request rx now ok =>
    cases phase with
    | stopped => exact ho.mono _
    | crashed => exact ho.mono _
    | running =>
      simp only [FwdInv] at hi
      obtain ⟨r, reply, fw', k', he, hnp, hr⟩ := origin_request hn hi.1 hi.2.2.1.ok hi.2.1 rx now ok ho
      simp only [fwdStep, he]
      cases r with
      | panic => exact absurd rfl hnp
      | ok u => exact hr
      | err => exact hr
    | stopping =>
      simp only [FwdInv] at hi
      obtain ⟨r, reply, fw', k', he, hnp, hr⟩ := origin_request hn hi.1 hi.2.2 hi.2.1 rx now ok ho
      simp only [fwdStep, he]
      cases r with
      | panic => exact absurd rfl hnp
      | ok u => exact hr
      | err => exact hr
  | maintain now env =>
    cases phase with
    | stopped => exact ho.mono _
    | crashed => exact ho.mono _
    | stopping => exact ho.mono _
    | running =>
      simp only [FwdInv] at hi
      obtain ⟨r, k', he, hr⟩ := maintain_cases hn hi.1 hi.2.2.1 hi.2.1 now env hf.1 hf.2
      simp only [fwdStep, he]
      have hleases : ∀ e ∈ fw.leases.filter (fun e => !e.2.isTimedOut now), Asked (h ++ [(FwdOp.maintain now env, none)]) e.1.1 e.1.2 ∧
          Supported n.family e.1.1 := fun e hem => (ho.mono _).leases e (List.mem_filter.1 hem).1
      rcases hr with ⟨rfl, _, hown⟩ | ⟨rfl, hk⟩
      · exact ⟨fun c hc => (ho.mono _).rules c (by rwa [← ownContents_congr hown]), hleases⟩
      · exact origin_of_chainOk (fw := { fw with leases := fw.leases.filter (fun e => !e.2.isTimedOut now) }) (hi.1.filter _) hk hleases

theorem origin_run {conf : Config} {n : NftNames} (hn : ChainOf conf n) {s : FwdState} {g : Grants} (hi : FwdInv conf n s g)
    {h : List (FwdOp × Option FwMessage)} (ho : OriginInv conf n s h) (ops : List FwdOp) (hf : Fair conf n s ops) :
    OriginInv conf n (fwdRun conf s ops).2 (h ++ (fwdRun conf s ops).1) := by
  induction ops generalizing s g h with
  | nil => simpa [fwdRun] using ho
  | cons op rest ih =>
    have := ih (fwdStep_inv hn hi op hf.1) (origin_step hn hi ho op hf.1) hf.2
    simpa [fwdRun] using this

/-- **C20** (in every phase). Whatever fails and whenever: also after failed maintenance and after a failed shutdown, a packet that the
chain accepts goes to an enabled control port or is covered by an acknowledged request. -/
theorem C20_never_unasked (conf : Config) (n : NftNames) (hn : ChainOf conf n) (k0 : Kernel) (ok0 : Bool) (s0 : FwdState)
    (h0 : fwdStart conf k0 ok0 = some s0) (ops : List FwdOp) (hf : Fair conf n s0 ops) (pkt : Packet)
    (hacc : chainAccepts n (fwdRun conf s0 ops).2.kernel pkt = true) :
    toControlPort conf pkt ∨
      ∃ x ∈ (fwdRun conf s0 ops).1, ∃ addr p to, granted x.1 x.2 = some (addr, p, to) ∧ covers addr p pkt := by
  obtain ⟨hp0, n', hn', hi⟩ := fwdStart_inv h0
  obtain rfl := chainOf_unique hn hn'
  obtain ⟨h1, _, h3, h4⟩ := inv_running hi hp0
  have hempty : s0.fw.leases = [] := by
    cases hl : s0.fw.leases with
    | nil => rfl
    | cons e l =>
      have := (h4 e.1.1 e.1.2 e.2.timeout).2 ⟨e.2, by rw [hl]; simp, rfl⟩
      cases this
  have ho : OriginInv conf n s0 [] := origin_of_chainOk (ph := s0.phase) h1 h3 (by rw [hempty]; simp)
  have hr := (origin_run hn hi ho ops hf).rules
  rw [List.nil_append] at hr
  rw [chainAccepts_contents, Bool.and_eq_true, List.any_eq_true] at hacc
  obtain ⟨hsee, c, hc, hrule⟩ := hacc
  rcases hr c hc with hctrl | ⟨a, p, ⟨x, hx, to, hg⟩, hs, hce⟩
  · exact .inl ((ctrlContents_accept conf pkt).1 (List.any_eq_true.2 ⟨c, hctrl, hrule⟩))
  · refine .inr ⟨x, hx, a, p, to, hg, ?_⟩
    refine (leaseContents_accept (l := ⟨a, p, 0⟩) hs pkt).1 ?_
    rw [hsee, Bool.true_and]
    exact List.any_eq_true.2 ⟨c, hce, hrule⟩

/-! ## Concrete cases -/

/-- Maintenance whose listing and rebuild fail. -/
def brokenEnv : NftEnv := { listOk := false, deleteOk := false, rebuildOk := false, afterList := id, beforeRebuild := id }

/-- A failed maintenance followed by a failed shutdown: the port stays open, and it is one that was asked for. -/
def badHistory : List FwdOp :=
  [.request (.msg (FwMessage.newOpen examplePeer .Tcp 22)) 0 true, .maintain (1000 * second) brokenEnv, .terminate false]

example : Fair fwConf fwNames fwStarted badHistory :=
  ⟨trivial, ⟨fun _ => ⟨rfl, Nat.le_refl _⟩, fun _ => ⟨rfl, Nat.le_refl _⟩⟩, trivial, trivial⟩
example : (fwdRun fwConf fwStarted (badHistory.take 2)).2.phase = .stopping ∧
    (fwdRun fwConf fwStarted badHistory).2.phase = .stopped ∧
    chainAccepts fwNames (fwdRun fwConf fwStarted badHistory).2.kernel ⟨examplePeer, .tcp, 22⟩ = true ∧
    chainAccepts fwNames (fwdRun fwConf fwStarted badHistory).2.kernel ⟨examplePeer, .udp, 22⟩ = false := by decide +kernel

example : matchable fwNames.family examplePeer = true ∧ (∃ e ∈ fwConf.resources, e.2.port = 22) ∧ 22 ≠ fwConf.port.port := by
  decide +kernel

/-- Neither a wrong family nor a missing name lets the daemon start. -/
example : fwdStart { fwConf with nftFamily := "arp".toList } fwKernel true = none ∧
    fwdStart { fwConf with nftTable := [] } fwKernel true = none ∧ fwdStart fwConf fwKernel false = none := by decide +kernel

/-- **C24** (literals). The texts written into rules denote the addresses they are written for, and no others. -/
theorem C24_literals_denote : (∀ a b, readIpv4 (showIpv4 a) = some b ↔ b = a) ∧ ∀ a b, readIpv6 (showIpv6 a) = some b ↔ b = a :=
  ⟨fun a b => by rw [readIpv4_showIpv4, Option.some.injEq, eq_comm], fun a b => by rw [readIpv6_showIpv6, Option.some.injEq, eq_comm]⟩

/-- Two runs of zeros, of which the longer one is shortened. -/
example : showIpv6 ⟨[0xFE, 0x80, 0, 0, 0, 0, 0, 5, 0, 0, 0, 0, 0, 0, 0, 0x4A], rfl⟩ = "fe80:0:0:5::4a".toList := by decide +kernel

end Letmein.Props
