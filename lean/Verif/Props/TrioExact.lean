import Verif.Props.Trio

/-!
# C48: exactly when the port is still open when the client reports success
-/

namespace Letmein.Spec
open Letmein

/-- Only the `i`th entry of the history has opened the port for the host. -/
def OpenedOnce (h : List (FwdOp × Option FwMessage)) (i : Nat) (peer : IpAddr) (port : UInt16) : Prop :=
  ∀ (j : Nat) x, h[j]? = some x → j ≠ i → ∀ a p to pkt, granted x.1 x.2 = some (a, p, to) → covers a p pkt →
    ¬ (pkt.src = hostOf peer ∧ pkt.dport = port)

end Letmein.Spec

namespace Letmein.Props
open Letmein Prog Spec

theorem fwdRun_length (conf : Config) (s : FwdState) (ops : List FwdOp) : (fwdRun conf s ops).1.length = ops.length := by
  rw [← List.length_map (f := (·.1)), fwdRun_ops]

theorem granted_newOpen {peer : IpAddr} {pt : PortType} {port : UInt16} {now : Nat} {ok : Bool} {reply : FwMessage} (h : reply.operation = .Ack) :
    granted (.request (.msg (FwMessage.newOpen peer pt port)) now ok) (some reply) = some (peer, selection pt port, now) := by
  have hgp : (FwMessage.newOpen peer pt port).getPort = some (pt, port) := rfl
  unfold granted
  simp only [h, if_true, newOpen_getAddr, hgp]

/-- **C48** (exactly). The client reports success over a connection on which nothing is modified or invented, times do not go backwards, letmeinfwd is
running and other programs leave the chain alone. Then there is the request of this knock among letmeinfwd's operations; if no maintenance after it had
a clock at or beyond the end of the lease, the port is open. If no other request has opened the port for this host, that is also necessary. -/
theorem C48_iff (mac : MacFn) (sconf fconf : Config) (peer : IpAddr) (u : UserId) (r : ResourceId) (key : Key)
    (n : NftNames) (hn : ChainOf fconf n) (k0 : Kernel) (startOk : Bool) (sI : FwdState)
    (hstart : fwdStart fconf k0 startOk = some sI) (before : List FwdOp) (evs : List TrioEv) (L : Links)
    (hrun : TrioRun mac sconf fconf peer u r key (fwdRun fconf sI before).2 evs (some (.ok ())) L)
    (hfair : Fair fconf n sI (before ++ fwdOps evs)) (hch : Chronological (before ++ fwdOps evs)) (hup : L.fwd.phase = .running) :
    ∃ res pt a now ok b, sconf.resource r = some res ∧
      fwdOps evs = a ++ .request (.msg (FwMessage.newOpen peer pt res.port)) now ok :: b ∧
      ((∀ tm env, FwdOp.maintain tm env ∈ b → tm < now + fconf.nftTimeout) → OpenFor n L.fwd.kernel peer res) ∧
      (OpenedOnce (fwdRun fconf sI (before ++ fwdOps evs)).1 (before.length + a.length) peer res.port →
        (OpenFor n L.fwd.kernel peer res ↔ ∀ tm env, FwdOp.maintain tm env ∈ b → tm < now + fconf.nftTimeout)) := by
  obtain ⟨res, pt, a, b, now, ok, reply, hres, ht, hu, hops, hans, hack⟩ := success_acknowledged hrun
  have hL := linkRun_fwd hrun.links
  have hL' : L.fwd = (fwdRun fconf sI (before ++ fwdOps evs)).2 := by rw [fwdRun_append]; exact hL
  rw [hL'] at hup ⊢
  have hg := granted_newOpen (peer := peer) (pt := pt) (port := res.port) (now := now) (ok := ok) hack
  -- the history
  have hsplit : (fwdRun fconf sI (before ++ fwdOps evs)).1 =
      ((fwdRun fconf sI (before ++ a)).1) ++ (FwdOp.request (.msg (FwMessage.newOpen peer pt res.port)) now ok, some reply) ::
        (fwdRun fconf (fwdRun fconf sI (before ++ a ++ [.request (.msg (FwMessage.newOpen peer pt res.port)) now ok])).2 b).1 := by
    rw [hops, ← List.append_assoc, fwdRun_append]
    refine congrArg (_ ++ ·) ?_
    simp only [fwdRun]
    rw [fwdRun_append] at *
    simp only [fwdRun_append, fwdRun] at *
    rw [hans]
  have hlen : (fwdRun fconf sI (before ++ a)).1.length = before.length + a.length := by rw [fwdRun_length, List.length_append]
  generalize hh1 : (fwdRun fconf sI (before ++ a)).1 = h1 at hsplit hlen
  generalize hs1 : (fwdRun fconf sI (before ++ a ++ [.request (.msg (FwMessage.newOpen peer pt res.port)) now ok])).2 = s1 at hsplit
  have hmem : ∀ tm env, (∃ rr, (FwdOp.maintain tm env, rr) ∈ (fwdRun fconf s1 b).1) ↔ FwdOp.maintain tm env ∈ b := by
    intro tm env
    have := fwdRun_ops fconf s1 b
    constructor
    · rintro ⟨rr, hm⟩
      rw [← this]
      exact List.mem_map.2 ⟨_, hm, rfl⟩
    · intro hm
      rw [← this] at hm
      obtain ⟨⟨op, rr⟩, hm, rfl⟩ := List.mem_map.1 hm
      exact ⟨rr, hm⟩
  have cov : ∀ pkt : Packet, pkt.src = hostOf peer → pkt.dport = res.port →
      (pkt.proto = .tcp ∧ res.tcp = true) ∨ (pkt.proto = .udp ∧ res.udp = true) → covers peer (selection pt res.port) pkt := by
    intro pkt hsrc hport hproto
    refine ⟨hsrc.symm, ?_⟩
    cases pt <;> simp only [opensTcp, opensUdp] at ht hu <;> simp only [selection, portCovers]
    · refine ⟨?_, hport⟩
      rcases hproto with h | h
      · exact h.1
      · rw [← hu] at h; exact absurd h.2 (by simp)
    · refine ⟨?_, hport⟩
      rcases hproto with h | h
      · rw [← ht] at h; exact absurd h.2 (by simp)
      · exact h.1
    · exact hport
  have suff : (∀ tm env, FwdOp.maintain tm env ∈ b → tm < now + fconf.nftTimeout) →
      OpenFor n (fwdRun fconf sI (before ++ fwdOps evs)).2.kernel peer res := by
    intro hm pkt hsrc hport hproto
    exact C20_not_early fconf n hn k0 startOk sI hstart _ hfair hup hch h1 _ _ hsplit peer (selection pt res.port) now hg
      (fun tm env rr hx => hm tm env ((hmem tm env).1 ⟨rr, hx⟩)) pkt (cov pkt hsrc hport hproto)
  refine ⟨res, pt, a, now, ok, b, hres, hops, suff, fun hone => ⟨fun hopen => ?_, suff⟩⟩
  -- a packet that should be let through
  obtain ⟨proto, hproto⟩ : ∃ proto : L4, (proto = .tcp ∧ res.tcp = true) ∨ (proto = .udp ∧ res.udp = true) := by
    cases pt <;> simp only [opensTcp, opensUdp] at ht hu
    · exact ⟨.tcp, .inl ⟨rfl, ht.symm⟩⟩
    · exact ⟨.udp, .inr ⟨rfl, hu.symm⟩⟩
    · exact ⟨.tcp, .inl ⟨rfl, ht.symm⟩⟩
  have hacc := hopen ⟨hostOf peer, proto, res.port⟩ rfl rfl hproto
  rcases (C19_chain_equals_grants fconf n hn k0 startOk sI hstart _ hfair hup _).1 hacc with ⟨_, hctl⟩ | ⟨addr, p, e, hgr, hc⟩
  · have hd := ack_decide (a := peer) (p := selection pt res.port) (to := now) (by rw [hans]; exact hg)
    obtain ⟨m, t, port, hm, _, _, hp, _, _, _, hne⟩ := fwdDecide_open hd
    injection hm with hm
    subst hm
    have hgp : (FwMessage.newOpen peer pt res.port).getPort = some (pt, res.port) := rfl
    rw [hgp] at hp
    injection hp with hp
    injection hp with _ hp
    exact absurd (hp.symm.trans hctl.1) hne
  · rcases grants_origin hgr with ⟨h, _⟩ | ⟨h1', x, h2', to, hh, hx, he, hlt⟩
    · simp [Grants.none] at h
    · by_cases hj : h1'.length = before.length + a.length
      · rw [hsplit] at hh
        have hinj := List.append_inj hh (by rw [hlen, hj])
        obtain ⟨_, h3⟩ := hinj
        injection h3 with h3 h4
        subst h3 h4
        rw [hg] at hx
        injection hx with hx
        simp only [Prod.mk.injEq] at hx
        obtain ⟨rfl, rfl, rfl⟩ := hx
        intro tm env hm
        obtain ⟨rr, hrr⟩ := (hmem tm env).2 hm
        have := hlt tm env rr hrr
        omega
      · refine absurd ⟨rfl, rfl⟩ (hone h1'.length x ?_ hj addr p to _ hx hc)
        rw [hh]
        simp

/-- The hypotheses hold of the run in which the maintenance comes after the end of a short lease. -/
example : fwdStart shortConf fwKernel true = some fwStarted ∧
    TrioRun toyMac exampleConf shortConf examplePeer ⟨0xA423DDA7⟩ ⟨0xBC5D8077⟩ (Arr.replicate 32 7) fwStarted
      (trioEvs [.maintain (3 * second) calmEnv]) (some (.ok ())) (trioEnd shortConf fwStarted [.maintain (3 * second) calmEnv]) ∧
    Fair shortConf fwNames fwStarted ([] ++ fwdOps (trioEvs [.maintain (3 * second) calmEnv])) ∧
    Chronological ([] ++ fwdOps (trioEvs [.maintain (3 * second) calmEnv])) ∧
    (trioEnd shortConf fwStarted [.maintain (3 * second) calmEnv]).fwd.phase = .running ∧
    OpenedOnce (fwdRun shortConf fwStarted (fwdOps (trioEvs [.maintain (3 * second) calmEnv]))).1 0 examplePeer 22 := by
  refine ⟨fwStarted_ok, trioEnd_ok (by decide +kernel), ⟨trivial, ⟨fun _ => ⟨rfl, Nat.le_refl _⟩, fun _ => ⟨rfl, Nat.le_refl _⟩⟩, trivial⟩, ?_,
    by decide +kernel, ?_⟩
  · have : ([] ++ fwdOps (trioEvs [.maintain (3 * second) calmEnv])) =
        [.request (.msg (FwMessage.newOpen examplePeer .Tcp 22)) second true, .maintain (3 * second) calmEnv] := rfl
    rw [this]
    simp [Chronological, FwdOp.time, second]
  · intro j x hj hne a p to pkt hg _
    have hl := fwdRun_length shortConf fwStarted (fwdOps (trioEvs [.maintain (3 * second) calmEnv]))
    have ho := fwdRun_ops shortConf fwStarted (fwdOps (trioEvs [.maintain (3 * second) calmEnv]))
    have : fwdOps (trioEvs [.maintain (3 * second) calmEnv]) =
        [.request (.msg (FwMessage.newOpen examplePeer .Tcp 22)) second true, .maintain (3 * second) calmEnv] := rfl
    rw [this] at hl ho hj
    have hx : ((fwdRun shortConf fwStarted [.request (.msg (FwMessage.newOpen examplePeer .Tcp 22)) second true, .maintain (3 * second) calmEnv]).1.map (·.1))[j]? = some x.1 := by
      rw [List.getElem?_map, hj]; rfl
    rw [ho] at hx
    match j, hne, hx with
    | 1, _, hx =>
      obtain ⟨op, rr⟩ := x
      simp only [List.getElem?_cons_succ, List.getElem?_cons_zero, Option.some.injEq] at hx
      subst hx
      simp [granted] at hg
    | j + 2, _, hx => simp at hx

end Letmein.Props
