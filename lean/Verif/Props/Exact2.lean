import Verif.Props.FwForeign
import Verif.Props.UdpFaults
import Verif.Props.Daemon

/-!
# Exact versions of partial properties: C18, C25, C32, C59, C70

These properties are false of the code as stated. Here it is said exactly what is true instead.
-/

namespace Letmein.Props

open Letmein Prog Spec

/-! ## C18 and C25: what requests can open -/

theorem exact_snoc (conf : Config) (s : FwdState) (ops : List FwdOp) (op : FwdOp) :
    (fwdRun conf s (ops ++ [op])).2 = (fwdStep conf (fwdRun conf s ops).2 op).2 ∧
      (fwdRun conf s (ops ++ [op])).1 = (fwdRun conf s ops).1 ++ [(op, (fwdStep conf (fwdRun conf s ops).2 op).1)] := by
  induction ops generalizing s with
  | nil => exact ⟨rfl, rfl⟩
  | cons o ops ih =>
    obtain ⟨h1, h2⟩ := ih (fwdStep conf s o).2
    simp only [List.cons_append, fwdRun, h1, h2, and_self]

theorem exact_fair {conf : Config} {n : NftNames} {s : FwdState} {ops : List FwdOp} (h : Fair conf n s ops) (rx : FwRecvOut) (now : Nat) (ok : Bool) :
    Fair conf n s (ops ++ [.request rx now ok]) := by
  induction ops generalizing s with
  | nil => exact ⟨trivial, trivial⟩
  | cons o ops ih => exact ⟨h.1, ih h.2⟩

theorem exact_after (t : Nat) (g : Grants) (h : List (FwdOp × Option FwMessage)) (op : FwdOp) (r : Option FwMessage) :
    g.after t (h ++ [(op, r)]) = (g.after t h).step t op r := by
  induction h generalizing g with
  | nil => rfl
  | cons x h ih => obtain ⟨o, q⟩ := x; exact ih _

theorem exact_phase {conf : Config} {s : FwdState} (hr : s.phase = .running) (rx : FwRecvOut) (now : Nat) (ok : Bool)
    (hc : (fwdStep conf s (.request rx now ok)).2.phase ≠ .crashed) : (fwdStep conf s (.request rx now ok)).2.phase = .running := by
  unfold fwdStep at hc ⊢
  simp only [hr] at hc ⊢
  split at hc
  · simp at hc
  · rfl

theorem hostOf_idem (a : IpAddr) : hostOf (hostOf a) = hostOf a := by
  cases a with
  | v4 a => rfl
  | v6 a =>
    by_cases h : a.val.take 12 = [0, 0, 0, 0, 0, 0, 0, 0, 0, 0, 0xFF, 0xFF]
    · simp only [hostOf, dif_pos h]
    · simp only [hostOf, dif_neg h]

theorem hostOf_eq_v6 {a : IpAddr} {b : Arr 16} (h : hostOf a = .v6 b) : a = .v6 b := by
  cases a with
  | v4 a => cases h
  | v6 a =>
    by_cases hx : a.val.take 12 = [0, 0, 0, 0, 0, 0, 0, 0, 0, 0, 0xFF, 0xFF]
    · simp only [hostOf, dif_pos hx] at h
      cases h
    · simpa only [hostOf, dif_neg hx] using h

theorem hostOf_mapped (a : Arr 4) : hostOf (mapped a) = .v4 a := by
  unfold mapped hostOf
  simp

theorem portCovers_port {p : LeasePort} {pkt : Packet} (h : portCovers p pkt) : pkt.dport = p.port := by
  cases p with
  | Tcp port => exact h.2
  | Udp port => exact h.2
  | TcpUdp port => exact h

/-- **C25, C18** (exact). Which packets can be let in by some request: those to the port of a resource other than the control port, from any address
that the chain sees, except the unspecified and the all-ones IPv6 address. The transport protocol does not matter (whatever the protocols of the resource
are), and the unspecified and the broadcast IPv4 address are among the addresses. -/
theorem C25_openable_iff (conf : Config) (n : NftNames) (hn : ChainOf conf n) (k0 : Kernel) (ok0 : Bool) (s0 : FwdState)
    (h0 : fwdStart conf k0 ok0 = some s0) (ops : List FwdOp) (hf : Fair conf n s0 ops)
    (hr : (fwdRun conf s0 ops).2.phase = .running) (pkt : Packet) (hno : chainAccepts n (fwdRun conf s0 ops).2.kernel pkt = false) :
    (∃ rx now ok, chainAccepts n (fwdStep conf (fwdRun conf s0 ops).2 (.request rx now ok)).2.kernel pkt = true) ↔
      familySees n.family pkt.src = true ∧ hostOf pkt.src = pkt.src ∧ (∃ e ∈ conf.resources, e.2.port = pkt.dport) ∧ pkt.dport ≠ conf.port.port ∧
      pkt.src ≠ .v6 (Arr.replicate 16 0) ∧ pkt.src ≠ .v6 (Arr.replicate 16 0xFF) := by
  have hrun : ∀ rx now ok, (fwdRun conf s0 (ops ++ [.request rx now ok])).2.phase = .running := by
    intro rx now ok
    have hc := C49_no_crash conf k0 ok0 s0 h0 (ops ++ [.request rx now ok])
    rw [(exact_snoc conf s0 ops _).1] at hc ⊢
    exact exact_phase hr rx now ok hc
  have hch := fun rx now ok => C19_chain_equals_grants conf n hn k0 ok0 s0 h0 (ops ++ [.request rx now ok]) (exact_fair hf rx now ok) (hrun rx now ok) pkt
  have hnow := C19_chain_equals_grants conf n hn k0 ok0 s0 h0 ops hf hr pkt
  constructor
  · rintro ⟨rx, now, ok, hacc⟩
    have hsee : familySees n.family pkt.src = true := by
      unfold chainAccepts at hacc
      exact (Bool.and_eq_true_iff.1 hacc).1
    have h := hch rx now ok
    rw [(exact_snoc conf s0 ops _).1, (exact_snoc conf s0 ops _).2, exact_after] at h
    rcases h.1 hacc with hctrl | ⟨addr, p, e, hg, hc⟩
    · rw [hnow.2 (.inl hctrl)] at hno; cases hno
    · cases hgr : granted (.request rx now ok) (fwdStep conf (fwdRun conf s0 ops).2 (.request rx now ok)).1 with
      | none =>
        simp only [Grants.step, hgr] at hg
        rw [hnow.2 (.inr ⟨addr, p, e, hg, hc⟩)] at hno
        cases hno
      | some x =>
        obtain ⟨a, q, to⟩ := x
        simp only [Grants.step, hgr] at hg
        split at hg
        · rename_i he
          obtain ⟨rfl, rfl⟩ := he
          obtain ⟨m, t, port, -, -, -, -, hsel, hck, hres, hne⟩ := fwdDecide_open (ack_decide hgr)
          have hp : pkt.dport = port := by rw [portCovers_port hc.2, hsel, selection_port]
          refine ⟨hsee, by rw [← hc.1, hostOf_idem], by rw [hp]; exact mem_of_resourceIdByPort hres, by rw [hp]; exact hne, ?_, ?_⟩ <;>
            (intro hx; rw [← hc.1] at hx; rw [hostOf_eq_v6 hx] at hck; simp [addrCheck] at hck)
        · rw [hnow.2 (.inr ⟨addr, p, e, hg, hc⟩)] at hno
          cases hno
  · rintro ⟨h1, h2, h3, h4, h5, h6⟩
    obtain ⟨addr, ha, ha1, ha2, ha3, ha4⟩ : ∃ addr, hostOf addr = pkt.src ∧ addr ≠ .v4 (Arr.replicate 4 0) ∧ addr ≠ .v4 (Arr.replicate 4 0xFF) ∧
        addr ≠ .v6 (Arr.replicate 16 0) ∧ addr ≠ .v6 (Arr.replicate 16 0xFF) := by
      generalize pkt.src = src at *
      cases src with
      | v4 a =>
        refine ⟨mapped a, hostOf_mapped a, by simp [mapped], by simp [mapped], ?_, ?_⟩ <;>
          (intro hx; have := hostOf_mapped a; rw [hx] at this; revert this; simp only [hostOf]; rw [dif_neg (by decide)]; intro hy; cases hy)
      | v6 a => exact ⟨.v6 a, h2, (by simp), (by simp), h5, h6⟩
    have hack := C17_valid_requests_acked conf n hn k0 ok0 s0 h0 ops hf (.inl hr) addr .TcpUdp pkt.dport (by unfold matchable; rw [ha]; exact h1)
      ha1 ha2 ha3 ha4 h3 h4 0
    refine ⟨.msg (FwMessage.newOpen addr .TcpUdp pkt.dport), 0, true, ?_⟩
    have h := hch (.msg (FwMessage.newOpen addr .TcpUdp pkt.dport)) 0 true
    rw [(exact_snoc conf s0 ops _).1, (exact_snoc conf s0 ops _).2, exact_after] at h
    refine h.2 (.inr ⟨addr, .TcpUdp pkt.dport, 0 + conf.nftTimeout, ?_, ha, rfl⟩)
    have hgr : granted (.request (.msg (FwMessage.newOpen addr .TcpUdp pkt.dport)) 0 true)
        (fwdStep conf (fwdRun conf s0 ops).2 (.request (.msg (FwMessage.newOpen addr .TcpUdp pkt.dport)) 0 true)).1 =
        some (addr, .TcpUdp pkt.dport, 0) := by
      rw [hack]
      simp only [granted, newOpen_getAddr]
      simp [FwMessage.newAck, FwMessage.getPort, FwMessage.newOpen, selection]
    simp only [Grants.step, hgr, and_self, if_true]

/-- **C18** (exact). Requests that letmeind would not make aside, the protocols of the resources protect nothing: if neither is let in now, a packet over
TCP can be let in by some request exactly if the same packet over UDP can. -/
theorem C18_protocol_irrelevant (conf : Config) (n : NftNames) (hn : ChainOf conf n) (k0 : Kernel) (ok0 : Bool) (s0 : FwdState)
    (h0 : fwdStart conf k0 ok0 = some s0) (ops : List FwdOp) (hf : Fair conf n s0 ops)
    (hr : (fwdRun conf s0 ops).2.phase = .running) (src : IpAddr) (port : UInt16)
    (hno : ∀ l4, chainAccepts n (fwdRun conf s0 ops).2.kernel ⟨src, l4, port⟩ = false) :
    (∃ rx now ok, chainAccepts n (fwdStep conf (fwdRun conf s0 ops).2 (.request rx now ok)).2.kernel ⟨src, .tcp, port⟩ = true) ↔
      ∃ rx now ok, chainAccepts n (fwdStep conf (fwdRun conf s0 ops).2 (.request rx now ok)).2.kernel ⟨src, .udp, port⟩ = true := by
  rw [C25_openable_iff conf n hn k0 ok0 s0 h0 ops hf hr _ (hno .tcp), C25_openable_iff conf n hn k0 ok0 s0 h0 ops hf hr _ (hno .udp)]

/-- The resource at port 22 of this configuration is TCP only; a UDP packet of 0.0.0.0 can be let in all the same, one of `::` cannot. -/
example : (∃ rx now ok, chainAccepts fwNames (fwdStep fwConf (fwdRun fwConf fwStarted fwHistory).2 (.request rx now ok)).2.kernel
      ⟨.v4 (Arr.replicate 4 0), .udp, 22⟩ = true) ∧
    ¬ ∃ rx now ok, chainAccepts fwNames (fwdStep fwConf (fwdRun fwConf fwStarted fwHistory).2 (.request rx now ok)).2.kernel
      ⟨.v6 (Arr.replicate 16 0), .udp, 22⟩ = true := by
  have hf : Fair fwConf fwNames fwStarted fwHistory :=
    ⟨⟨fun _ => ⟨rfl, Nat.le_refl _⟩, fun _ => ⟨rfl, Nat.le_refl _⟩⟩, trivial, trivial, trivial, trivial, trivial,
      ⟨fun _ => ⟨rfl, Nat.le_refl _⟩, fun _ => ⟨rfl, Nat.le_refl _⟩⟩, trivial⟩
  have hn : ChainOf fwConf fwNames := ⟨by decide, rfl, rfl, by decide, by decide⟩
  have h := fun pkt => C25_openable_iff fwConf fwNames hn fwKernel true fwStarted fwStarted_ok fwHistory hf (by decide +kernel) pkt
  refine ⟨(h _ (by decide +kernel)).2 (by decide +kernel), fun hx => ?_⟩
  exact ((h _ (by decide +kernel)).1 hx).2.2.2.2.1 rfl

/-! ## C70: the first request and renewals -/

theorem openPort_renew {conf : Config} {fw : NftFirewall} (hd : fw.shutdown = false) (k : Kernel) (now : Nat) (addr : IpAddr) (port : LeasePort)
    (ok : Bool) {l : Lease} (h : ((addr, port), l) ∈ fw.leases) : (fw.openPort conf k now addr port ok).2.2 = k := by
  have hex : fw.leases.any (fun e => decide (e.1 = (addr, port))) = true := List.any_eq_true.2 ⟨_, h, by simp⟩
  unfold NftFirewall.openPort
  rw [if_neg (by simp [hd])]
  simp only
  rw [if_pos hex]

/-- **C70** (exact). Whatever other programs have done to the chain: after an acknowledged request the address may use the port exactly if it could
before or had no grant for it. -/
theorem C70_open_iff (conf : Config) (n : NftNames) (hn : ChainOf conf n) (k0 : Kernel) (ok0 : Bool) (s0 : FwdState)
    (h0 : fwdStart conf k0 ok0 = some s0) (ops : List FwdOp) (op : FwdOp) (hf : OwnFair conf s0 ops)
    (hr : (fwdRun conf s0 ops).2.phase = .running) (addr : IpAddr) (p : LeasePort) (now : Nat)
    (hg : granted op (fwdStep conf (fwdRun conf s0 ops).2 op).1 = some (addr, p, now)) (pkt : Packet) (hc : covers addr p pkt) :
    chainAccepts n (fwdStep conf (fwdRun conf s0 ops).2 op).2.kernel pkt = true ↔
      chainAccepts n (fwdRun conf s0 ops).2.kernel pkt = true ∨ Grants.none.after conf.nftTimeout (fwdRun conf s0 ops).1 addr p = none := by
  cases hfirst : Grants.none.after conf.nftTimeout (fwdRun conf s0 ops).1 addr p with
  | none =>
    exact ⟨fun _ => .inr rfl, fun _ => C70_first_request_partial conf n hn k0 ok0 s0 h0 ops op hf hr addr p now hg hfirst pkt hc⟩
  | some e =>
    have hi := fwdRun_leases hn (fwdStart_leases hn h0) ops hf
    obtain ⟨m, t, port, ok, rfl, -⟩ := granted_inv hg
    have hdec := ack_decide hg
    simp only [reduceCtorEq, or_false]
    generalize Grants.none.after conf.nftTimeout (fwdRun conf s0 ops).1 = g at *
    generalize (fwdRun conf s0 ops).2 = s at *
    obtain ⟨phase, fw, k⟩ := s
    simp only at hr
    subst hr
    obtain ⟨h1, h2, h4⟩ := hi
    obtain ⟨l, hl, -⟩ := (h4 addr p e).1 hfirst
    have hk := openPort_renew (conf := conf) h2 k now addr p ok hl
    simp only [fwdStep, handleMessage, hdec]
    rcases hop : fw.openPort conf k now addr p ok with ⟨r, fw', k'⟩
    rw [hop] at hk
    simp only at hk
    subst hk
    cases r <;> exact Iff.rfl

/-- The chain has been flushed by another program; the renewal (the third condition fails) does not open the port. -/
example : granted (.request (.msg (FwMessage.newOpen examplePeer .Tcp 22)) (2 * second) true)
      (fwdStep fwConf (fwdRun fwConf fwStarted flushedHistory).2 (.request (.msg (FwMessage.newOpen examplePeer .Tcp 22)) (2 * second) true)).1 =
      some (examplePeer, .Tcp 22, 2 * second) ∧
    chainAccepts fwNames (fwdRun fwConf fwStarted flushedHistory).2.kernel ⟨examplePeer, .tcp, 22⟩ = false ∧
    Grants.none.after fwConf.nftTimeout (fwdRun fwConf fwStarted flushedHistory).1 examplePeer (.Tcp 22) ≠ none := by
  decide +kernel

/-! ## C32: sizes of datagrams -/

/-- **C32** (exact). In any history: what a session waiting with an empty queue receives when the socket hands it a datagram of its peer. It is delivered
exactly if it has at least 56 bytes, and then its first 56 are. -/
theorem C32_delivered_iff (max : Nat) (ops : List UdpOp) (hl : OrderLegal (UdpSrv.new max) ops) (sid : Nat) (p : SocketAddr) (w : Wake) (data : Bytes)
    (c : UdpConn) (halive : (udpRun (UdpSrv.new max) ops).2.crashed = false)
    (hs : (udpRun (UdpSrv.new max) ops).2.sessions[sid]? = some { peer := p, closed := false })
    (hc : assocGet (udpRun (UdpSrv.new max) ops).2.disp.conn p = some c) (hq : c.rxQueue = [])
    (hnp : (udpStep (udpRun (UdpSrv.new max) ops).2 (.recv sid w (.dgram p data))).1 ≠ .panic) (b : Arr MSG_SIZE) :
    (udpStep (udpRun (UdpSrv.new max) ops).2 (.recv sid w (.dgram p data))).1 = .got b ↔ 56 ≤ data.length ∧ b.val = data.take 56 := by
  have hd := disp_run (DispOk.new max) (s := UdpSrv.new max) hl
  generalize (udpRun (UdpSrv.new max) ops).2 = s at *
  unfold udpStep at hnp ⊢
  simp only [halive, Bool.false_eq_true, if_false, hs] at hnp ⊢
  have hd0 : DispOk max (wakeRecv s.disp w) := hd.congr (wakeRecv_same _ _).1 (wakeRecv_same _ _).2.1
  have hc0 : assocGet (wakeRecv s.disp w).conn p = some c := by rw [(wakeRecv_same _ _).1]; exact hc
  generalize wakeRecv s.disp w = d at *
  have hcf : connFor d p = c := by unfold connFor; rw [hc0]; rfl
  have ht := tryRecv_cases hd0 (.dgram p data)
  unfold UdpDisp.tryRecvFrom at hnp ⊢
  rcases hx : d.tryRecv (.dgram p data) with ⟨r, d'⟩
  rw [hx] at ht
  simp only at ht hnp ⊢
  cases ht with
  | short h =>
    simp only [reduceCtorEq, false_iff, not_and]
    intro h'
    omega
  | overflow h hc' hq' =>
    rw [hc0] at hc'
    cases hc'
    rw [hq] at hq'
    cases hq'
  | full h hc' => rw [hc0] at hc'; cases hc'
  | crash => rw [hx] at hnp; simp at hnp
  | push h hb hq' hs' hn =>
    rename_i b'
    have hg : assocGet (pushed d p b').conn p = some { c with rxQueue := [b'] } := by
      unfold pushed
      rw [assocGet_set_self, hcf, hq]
      rfl
    simp only [hg]
    rw [if_neg (by simp [pushed])]
    simp only [UdpOut.got.injEq]
    constructor
    · rintro rfl
      exact ⟨h, hb⟩
    · rintro ⟨-, h2⟩
      exact Subtype.ext (hb.trans h2.symm)

/-- After its first message, of 57 bytes, has been read, a session waits with an empty queue; the next of 60 bytes is delivered cut. -/
example : (udpRun (UdpSrv.new 8) longHistory).2.sessions[0]? = some { peer := exPeer, closed := false } ∧
    assocGet (udpRun (UdpSrv.new 8) longHistory).2.disp.conn exPeer = some { rxQueue := [], peerAddr := exPeer, accepted := true } ∧
    (udpStep (udpRun (UdpSrv.new 8) longHistory).2 (.recv 0 .readable (.dgram exPeer (exData 7 ++ [1, 2, 3, 4])))).1 = .got ⟨exData 7, rfl⟩ := by
  decide +kernel

/-! ## C59: failed starts -/

/-- **C59** (exact). A start that fails leaves rules in a chain that had none exactly if it fails after the chain has been written: the account has been
found and nft has worked, and the control port is enabled. -/
theorem C59_failed_start_iff {testMode : Bool} {passwd group : Option Str} {conf : Config} {n : NftNames} (hn : ChainOf conf n) {k0 k1 : Kernel}
    {nftOk : Bool} {limit : Nat} {listener : UInt32 × UInt32 → R UnixListener} {r : R (FwdSetup × FwdLife)}
    (h : lifeStart testMode passwd group conf k0 nftOk limit listener = (k1, r)) (hr : ∀ x, r ≠ .ok x) (he : ownRules n k0 = []) :
    ownRules n k1 ≠ [] ↔ (∃ ids, readEtcPasswd testMode passwd group = .ok ids) ∧ nftOk = true ∧ (conf.port.tcp = true ∨ conf.port.udp = true) := by
  unfold lifeStart at h
  cases hids : readEtcPasswd testMode passwd group with
  | err =>
    rw [hids] at h
    injection h with h _
    rw [← h]
    simp [he]
  | panic =>
    rw [hids] at h
    injection h with h _
    rw [← h]
    simp [he]
  | ok ids =>
    rw [hids] at h
    simp only at h
    unfold NftFirewall.new at h
    simp only at h
    have hk : k1 = (fullRebuild conf { leases := [], shutdown := false } k0 nftOk).2 := by
      generalize fullRebuild conf { leases := [], shutdown := false } k0 nftOk = x at h
      obtain ⟨y, k'⟩ := x
      cases y <;> (injection h with h _; exact h.symm)
    rcases fullRebuild_cases hn (fw := { leases := [], shutdown := false }) (by simp) rfl k0 nftOk with ⟨h1, h2, h3, -⟩ | h1
    · rw [← hk] at h3
      have hlen := h3.rules.length_eq
      simp only [ownContents, wanted, List.length_map, List.flatMap_nil, List.append_nil, ctrlContents] at hlen
      have : ownRules n k1 ≠ [] ↔ (ownRules n k1).length ≠ 0 := by simp
      rw [this, hlen]
      cases conf.port.tcp <;> cases conf.port.udp <;> simp [h1]
    · rw [h1] at hk
      simp only at hk
      rw [hk]
      simp only [he, ne_eq, not_true_eq_false, false_iff, not_and]
      intro _ ho
      subst ho
      unfold fullRebuild at h1
      rw [rebuildCmds_ok hn (by simp) rfl] at h1
      obtain ⟨k', h2, -⟩ := rebuild_apply (n := n) k0 (ctrlContents conf ++ List.flatMap (fun e : LeaseId × Lease => leaseContents n.family e.2) [])
      simp only [applyBatch, h2, if_true] at h1
      cases h1

/-- The socket cannot be created; without the account nothing is left. -/
example : (∃ k1, lifeStart false (some "letmeind:x:997:997::/:/bin/false".toList) (some "letmeind:x:996:".toList) fwConf ⟨[], 1⟩ true 8 (fun _ => .err) =
      (k1, .err) ∧ ownRules fwNames k1 ≠ []) ∧
    ∃ k1, lifeStart false (some "root:x:0:0::/:/bin/false".toList) (some "letmeind:x:996:".toList) fwConf ⟨[], 1⟩ true 8 (fun _ => .err) =
      (k1, .err) ∧ ownRules fwNames k1 = [] := by
  have hn : ChainOf fwConf fwNames := ⟨by decide, rfl, rfl, by decide, by decide⟩
  have h1 : readEtcPasswd false (some "letmeind:x:997:997::/:/bin/false".toList) (some "letmeind:x:996:".toList) = .ok (997, 996) := by decide +kernel
  have h2 : readEtcPasswd false (some "root:x:0:0::/:/bin/false".toList) (some "letmeind:x:996:".toList) = .err := by decide +kernel
  have e1 : ∃ k1, lifeStart false (some "letmeind:x:997:997::/:/bin/false".toList) (some "letmeind:x:996:".toList) fwConf ⟨[], 1⟩ true 8
      (fun _ => .err) = (k1, .err) := ⟨_, rfl⟩
  have e2 : ∃ k1, lifeStart false (some "root:x:0:0::/:/bin/false".toList) (some "letmeind:x:996:".toList) fwConf ⟨[], 1⟩ true 8
      (fun _ => .err) = (k1, .err) := ⟨_, rfl⟩
  obtain ⟨k1, e1⟩ := e1
  obtain ⟨k2, e2⟩ := e2
  refine ⟨⟨k1, e1, (C59_failed_start_iff hn e1 (by simp) (by decide)).2 ⟨⟨_, h1⟩, rfl, .inl rfl⟩⟩, k2, e2, Classical.byContradiction fun hx => ?_⟩
  obtain ⟨⟨ids, hi⟩, -⟩ := (C59_failed_start_iff hn e2 (by simp) (by decide)).1 hx
  rw [h2] at hi
  cases hi

end Letmein.Props
