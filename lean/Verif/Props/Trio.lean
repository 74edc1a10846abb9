import Verif.Lemmas.Trio

/-!
# Property C48: when the client reports success, the port is open
-/

namespace Letmein.Props

open Letmein Prog Spec

/-- The operations all take place within less than `d`. -/
def Within (d : Nat) (ops : List FwdOp) : Prop :=
  ∃ t0, ∀ op ∈ ops, ∀ t, FwdOp.time op = some t → t0 ≤ t ∧ t < t0 + d

/-- The chain lets the peer in at the resource: from its address, to the port, with each configured protocol. -/
def OpenFor (n : NftNames) (k : Kernel) (peer : IpAddr) (res : Resource) : Prop :=
  ∀ pkt : Packet, pkt.src = hostOf peer → pkt.dport = res.port →
    (pkt.proto = .tcp ∧ res.tcp = true) ∨ (pkt.proto = .udp ∧ res.udp = true) → chainAccepts n k pkt = true

/-- If the client succeeds, the session got the acknowledgement of letmeinfwd for the peer's address and the port and
protocols of the requested resource. -/
theorem success_acknowledged {mac : MacFn} {sconf fconf : Config} {peer : IpAddr} {u : UserId} {r : ResourceId} {key : Key}
    {s0 : FwdState} {evs : List TrioEv} {L : Links} (h : TrioRun mac sconf fconf peer u r key s0 evs (some (.ok ())) L) :
    ∃ res pt a b now ok reply, sconf.resource r = some res ∧ opensTcp pt = res.tcp ∧ opensUdp pt = res.udp ∧
      fwdOps evs = a ++ .request (.msg (FwMessage.newOpen peer pt res.port)) now ok :: b ∧
      (fwdStep fconf (fwdRun fconf s0 a).2 (.request (.msg (FwMessage.newOpen peer pt res.port)) now ok)).1 = some reply ∧
      reply.operation = .Ack := by
  have inv := linkInv_run (linkInv_init fconf s0) h.links
  simp only [List.nil_append] at inv
  obtain ⟨knock, ch, resp, ci, hk, _, hresp, hci, hsent, hrecv, _⟩ := C13_success mac u r key _ h.client
  obtain ⟨o', hserv⟩ := h.server
  -- the Come-In was sent by the session
  have hci' : ci ∈ sent (serverEvs evs) := inv.crecv ci (by rw [hrecv]; simp)
  obtain ⟨e, he, hes⟩ := List.mem_filterMap.1 hci'
  obtain ⟨pre, post, hsplit⟩ := List.append_of_mem he
  obtain ⟨⟨req, reply, hsub, hack, hreqs⟩, _, _⟩ := C09_comein_after_ack mac sconf peer _ _ hserv pre e post hsplit ci hes hci
  -- so letmeinfwd answered
  have hrep : reply ∈ fwReplies (serverEvs evs) := by
    refine List.mem_filterMap.2 ⟨⟨.fwRecv, .msg reply⟩, ?_, rfl⟩
    rw [hsplit]
    exact List.mem_append_left _ (hsub.subset (by simp))
  obtain ⟨a, b, m, now, ok, hdone, hm, hans⟩ := inv.frecv reply hrep
  -- there is one request only
  have hreq : req ∈ fwRequests (serverEvs evs) := by
    rw [hsplit, fwRequests, List.filterMap_append]
    refine List.mem_append_left _ ?_
    have : req ∈ fwRequests pre := by rw [hreqs]; simp
    exact this
  have hone := C08_at_most_one mac sconf peer _ _ hserv
  have hmreq : m = req := by
    cases hx : fwRequests (serverEvs evs) with
    | nil => rw [hx] at hm; cases hm
    | cons x l =>
      cases l with
      | cons => rw [hx] at hone; simp at hone
      | nil => rw [hx] at hm hreq; simp at hm hreq; rw [hm, hreq]
  -- and it is for the resource the client named
  obtain ⟨e2, he2, hes2⟩ := List.mem_filterMap.1 hm
  obtain ⟨pre2, post2, hsplit2⟩ := List.append_of_mem he2
  obtain ⟨knock', ch', resp', nonce, key', res, pt, hfull, hmeq, ht, hu, _, _⟩ :=
    C08_request_content mac sconf peer _ _ hserv pre2 e2 post2 hsplit2 m hes2
  have hkn : knock' ∈ received (serverEvs evs) := by
    rw [hsplit2, received, List.filterMap_append]
    refine List.mem_append_left _ ?_
    have : knock' ∈ received pre2 := by rw [hfull.recvOnly]; simp
    exact this
  have hkr : knock'.resource = r := by
    have := inv.srecv knock' hkn
    rw [hsent] at this
    simp only [List.mem_cons, List.not_mem_nil, or_false] at this
    rcases this with rfl | rfl
    · exact hk.2.2.1
    · exact hresp.2.2.1
  refine ⟨res, pt, fwdOps a, fwdOps b, now, ok, reply, by rw [← hkr]; exact hfull.granted.configured, ht, hu, ?_, ?_, hack⟩
  · rw [hdone, hmeq]
    simp only [fwdOps, List.filterMap_append, List.filterMap_cons]
  · rw [← hmeq]; exact hans

/-- After an acknowledged request the chain lets the address in, as long as the daemon has not been shut down and less than the lease
time has passed. -/
theorem open_after_ack {fconf : Config} {n : NftNames} (hn : ChainOf fconf n) {k0 : Kernel} {startOk : Bool} {sI : FwdState}
    (hstart : fwdStart fconf k0 startOk = some sI) {before ops a b : List FwdOp} {peer : IpAddr} {res : Resource} {pt : PortType}
    {now : Nat} {ok : Bool} {reply : FwMessage} (ht : opensTcp pt = res.tcp) (hu : opensUdp pt = res.udp)
    (hops : ops = a ++ .request (.msg (FwMessage.newOpen peer pt res.port)) now ok :: b)
    (hans : (fwdStep fconf (fwdRun fconf (fwdRun fconf sI before).2 a).2
      (.request (.msg (FwMessage.newOpen peer pt res.port)) now ok)).1 = some reply) (hack : reply.operation = .Ack)
    (hfair : Fair fconf n sI (before ++ ops)) (htime : Within fconf.nftTimeout ops)
    (hup : (fwdRun fconf (fwdRun fconf sI before).2 ops).2.phase ≠ .stopped) :
    OpenFor n (fwdRun fconf (fwdRun fconf sI before).2 ops).2.kernel peer res := by
  obtain ⟨hp0, n', hn', hinv0⟩ := fwdStart_inv hstart
  have := chainOf_unique hn hn'
  subst this
  obtain ⟨t0, htime⟩ := htime
  obtain ⟨hf1, hf2⟩ := fair_append hfair
  rw [hops] at hf2 htime hup ⊢
  obtain ⟨hf3, hf4⟩ := fair_append hf2
  have i1 := fwdRun_inv hn hinv0 before hf1
  have b1 := backed_run hn hinv0 (backed_start hinv0 hp0) before hf1
  have i2 := fwdRun_inv hn i1 a hf3
  have b2 := backed_run hn i1 b1 a hf3
  have i3 := fwdStep_inv hn i2 _ hf4.1
  have b3 := backed_step hn i2 b2 _ hf4.1
  have hl := hasLease_ack hn i2 hans hack
  have hnow := htime (.request (.msg (FwMessage.newOpen peer pt res.port)) now ok) (by simp) now rfl
  have hl' : HasLease (fwdStep fconf (fwdRun fconf (fwdRun fconf sI before).2 a).2
      (.request (.msg (FwMessage.newOpen peer pt res.port)) now ok)).2 peer (selection pt res.port) (t0 + fconf.nftTimeout) := by
    obtain ⟨l, h1, h2⟩ := hl
    exact ⟨l, h1, by omega⟩
  have i4 := fwdRun_inv hn i3 b hf4.2
  have b4 := backed_run hn i3 b3 b hf4.2
  rw [fwdRun_append] at hup ⊢
  have hl4 := hasLease_run hn i3 hl' b hf4.2 (fun op ho => htime op (by simp [ho])) hup
  refine fun pkt hsrc hport hproto => lease_effective i4 b4 hup hl4 ⟨hsrc.symm, ?_⟩
  cases pt <;> simp only [opensTcp, opensUdp] at ht hu <;> simp only [selection, portCovers]
  · refine ⟨?_, hport⟩
    rcases hproto with h | h
    · exact h.1
    · rw [← hu] at h; exact absurd h.2 (by simp)
  · refine ⟨?_, hport⟩
    rcases hproto with h | h
    · rw [← ht] at h; exact absurd h.2 (by simp)
    · exact h.1
  · exact hport

/-- **C48**. The client (knowing any key) reports success over a connection on which nothing is modified or invented: then
letmeind's configuration has the requested resource, and letmeinfwd's chain, at that moment, lets the client's address in at the
resource's port for all its protocols, whatever letmeinfwd served before and meanwhile. Missing: the case that letmeinfwd has been
shut down meanwhile, or that the exchange took longer than the lease time (see `C48_negation_shutdown`,
`C48_negation_expired`). Other programs leave the chain alone (`Fair`). -/
theorem C48_success_means_open_partial (mac : MacFn) (sconf fconf : Config) (peer : IpAddr) (u : UserId) (r : ResourceId) (key : Key)
    (n : NftNames) (hn : ChainOf fconf n) (k0 : Kernel) (startOk : Bool) (sI : FwdState)
    (hstart : fwdStart fconf k0 startOk = some sI) (before : List FwdOp) (evs : List TrioEv) (L : Links)
    (hrun : TrioRun mac sconf fconf peer u r key (fwdRun fconf sI before).2 evs (some (.ok ())) L)
    (hfair : Fair fconf n sI (before ++ fwdOps evs)) (htime : Within fconf.nftTimeout (fwdOps evs))
    (hup : L.fwd.phase ≠ .stopped) :
    ∃ res, sconf.resource r = some res ∧ OpenFor n L.fwd.kernel peer res := by
  obtain ⟨res, pt, a, b, now, ok, reply, hres, ht, hu, hops, hans, hack⟩ := success_acknowledged hrun
  have hL := linkRun_fwd hrun.links
  rw [hL] at hup ⊢
  exact ⟨res, hres, open_after_ack hn hstart ht hu hops hans hack hfair htime hup⟩

/-! ### Concrete runs -/

/-- The Challenge and the Come-In of the example session. -/
def trioChallenge : Message := { Message.new .Challenge ⟨0xA423DDA7⟩ ⟨0xBC5D8077⟩ goodSalt with auth := goodNonce }
/-- See `trioChallenge`. -/
def trioComeIn : Message := Message.new .ComeIn ⟨0xA423DDA7⟩ ⟨0xBC5D8077⟩ goodSalt

/-- A complete knock: letmeinfwd handles the request at second 1 and then does `meanwhile` until the Come-In arrives. -/
def trioEvs (meanwhile : List FwdOp) : List TrioEv :=
  [.client ⟨.connect, true⟩ true, .client ⟨.rand8, some goodSalt⟩ true, .client ⟨.send exampleKnock, true⟩ true,
   .server ⟨.recv, .msg exampleKnock⟩ true, .server ⟨.rand8, some goodSalt⟩ true, .server ⟨.rand32, some goodNonce⟩ true,
   .server ⟨.send trioChallenge, true⟩ true, .client ⟨.recv, .msg trioChallenge⟩ true, .client ⟨.rand8, some goodSalt⟩ true,
   .client ⟨.send exampleResponse, true⟩ true, .server ⟨.recv, .msg exampleResponse⟩ true, .server ⟨.fwConnect, true⟩ true,
   .server ⟨.fwSend (FwMessage.newOpen examplePeer .Tcp 22), true⟩ true,
   .fwd (.request (.msg (FwMessage.newOpen examplePeer .Tcp 22)) (1 * second) true) true,
   .server ⟨.fwRecv, .msg FwMessage.newAck⟩ true, .server ⟨.rand8, some goodSalt⟩ true,
   .server ⟨.send trioComeIn, true⟩ true] ++ meanwhile.map (fun op => .fwd op false) ++
  [.client ⟨.recv, .msg trioComeIn⟩ true]

theorem trioEvs_client (l : List FwdOp) : (knockSequence toyMac ⟨0xA423DDA7⟩ ⟨0xBC5D8077⟩ (Arr.replicate 32 7)).Trace
    (clientEvs (trioEvs l)) (some (.ok ())) := by
  have h0 : clientEvs (l.map (fun op => TrioEv.fwd op false)) = [] := by
    simp [clientEvs, List.filterMap_map, Function.comp_def]
  have h1 : clientEvs (trioEvs l) = clientEvs (trioEvs []) := by
    simp only [trioEvs, clientEvs, List.filterMap_append, List.map_nil] at h0 ⊢
    rw [h0]; rfl
  have h2 : clientEvs (trioEvs []) =
      (play (knockSequence toyMac ⟨0xA423DDA7⟩ ⟨0xBC5D8077⟩ (Arr.replicate 32 7)) clientScript).1 := by decide +kernel
  have h3 : (play (knockSequence toyMac ⟨0xA423DDA7⟩ ⟨0xBC5D8077⟩ (Arr.replicate 32 7)) clientScript).2 = some (.ok ()) := by
    decide +kernel
  rw [h1, h2, ← h3]
  exact play_trace _ _

theorem trioEvs_server (l : List FwdOp) : (session toyMac exampleConf examplePeer).Trace (serverEvs (trioEvs l)) (some (.ok ())) := by
  have h0 : serverEvs (l.map (fun op => TrioEv.fwd op false)) = [] := by
    simp [serverEvs, List.filterMap_map, Function.comp_def]
  have h1 : serverEvs (trioEvs l) = serverEvs (trioEvs []) := by
    simp only [trioEvs, serverEvs, List.filterMap_append, List.map_nil] at h0 ⊢
    rw [h0]; rfl
  have h2 : serverEvs (trioEvs []) = (play (session toyMac exampleConf examplePeer) exampleScript).1 := by decide +kernel
  have h3 : (play (session toyMac exampleConf examplePeer) exampleScript).2 = some (.ok ()) := by decide +kernel
  rw [h1, h2, ← h3]
  exact play_trace _ _

/-- The hypotheses of C48 are met: letmeinfwd, which already serves others, gets a request for another host and runs its
maintenance before the Come-In arrives. -/
def trioMeanwhile : List FwdOp :=
  [.request (.msg (FwMessage.newOpen (.v4 ⟨[192, 0, 2, 8], rfl⟩) .TcpUdp 443)) (2 * second) true, .maintain (3 * second) calmEnv]

/-- Where the run ends. -/
def trioEnd (conf : Config) (s : FwdState) (l : List FwdOp) : Links :=
  (linkRun conf ⟨[], [], [], [], s⟩ (trioEvs l)).getD ⟨[], [], [], [], s⟩

theorem trioEnd_ok {conf : Config} {s : FwdState} {l : List FwdOp}
    (h : (linkRun conf ⟨[], [], [], [], s⟩ (trioEvs l)).isSome = true) :
    TrioRun toyMac exampleConf conf examplePeer ⟨0xA423DDA7⟩ ⟨0xBC5D8077⟩ (Arr.replicate 32 7) s (trioEvs l) (some (.ok ()))
      (trioEnd conf s l) := by
  refine ⟨trioEvs_client l, ⟨_, trioEvs_server l⟩, ?_⟩
  obtain ⟨L, hL⟩ := Option.isSome_iff_exists.1 h
  rw [trioEnd, hL]; rfl

example : TrioRun toyMac exampleConf fwConf examplePeer ⟨0xA423DDA7⟩ ⟨0xBC5D8077⟩ (Arr.replicate 32 7)
      (fwdRun fwConf fwStarted [.maintain 0 calmEnv]).2 (trioEvs trioMeanwhile) (some (.ok ()))
      (trioEnd fwConf (fwdRun fwConf fwStarted [.maintain 0 calmEnv]).2 trioMeanwhile) ∧
    Fair fwConf fwNames fwStarted ([.maintain 0 calmEnv] ++ fwdOps (trioEvs trioMeanwhile)) ∧
    Within fwConf.nftTimeout (fwdOps (trioEvs trioMeanwhile)) ∧
    (trioEnd fwConf (fwdRun fwConf fwStarted [.maintain 0 calmEnv]).2 trioMeanwhile).fwd.phase ≠ .stopped := by
  refine ⟨trioEnd_ok (by decide +kernel), ⟨⟨fun _ => ⟨rfl, Nat.le_refl _⟩, fun _ => ⟨rfl, Nat.le_refl _⟩⟩, trivial, trivial,
    ⟨fun _ => ⟨rfl, Nat.le_refl _⟩, fun _ => ⟨rfl, Nat.le_refl _⟩⟩, trivial⟩, ⟨second, ?_⟩, by decide +kernel⟩
  intro op hop t ht
  simp only [trioEvs, trioMeanwhile, fwdOps, List.map_cons, List.map_nil, List.cons_append, List.nil_append,
    List.filterMap_cons, List.filterMap_nil, List.mem_cons, List.not_mem_nil, or_false] at hop
  have hT : fwConf.nftTimeout = 600 * second := by decide +kernel
  rw [hT]
  rcases hop with rfl | rfl | rfl <;> simp only [FwdOp.time, Option.some.injEq] at ht <;> subst ht <;> simp [second]

/-- **C48** (negation of the full statement, shutdown). letmeinfwd is terminated after it acknowledged and before the Come-In has
reached the client; the client reports success, the port is closed. -/
theorem C48_negation_shutdown : ∃ mac sconf fconf peer u r key n k0 s0 evs L res, ChainOf fconf n ∧
    fwdStart fconf k0 true = some s0 ∧ TrioRun mac sconf fconf peer u r key s0 evs (some (.ok ())) L ∧
    Fair fconf n s0 (fwdOps evs) ∧ Within fconf.nftTimeout (fwdOps evs) ∧ sconf.resource r = some res ∧
    sconf.resource r = fconf.resource r ∧ ¬ OpenFor n L.fwd.kernel peer res := by
  refine ⟨toyMac, exampleConf, fwConf, examplePeer, ⟨0xA423DDA7⟩, ⟨0xBC5D8077⟩, Arr.replicate 32 7, fwNames, fwKernel, fwStarted,
    trioEvs [.terminate true], trioEnd fwConf fwStarted [.terminate true], { port := 22, tcp := true, udp := false, users := [] },
    ⟨by decide, rfl, rfl, by decide, by decide⟩, fwStarted_ok, trioEnd_ok (by decide +kernel),
    ⟨trivial, trivial, trivial⟩, ⟨second, ?_⟩, by decide +kernel, by decide +kernel, ?_⟩
  · intro op hop t ht
    simp only [trioEvs, fwdOps, List.map_cons, List.map_nil, List.cons_append, List.nil_append,
      List.filterMap_cons, List.filterMap_nil, List.mem_cons, List.not_mem_nil, or_false] at hop
    have hT : fwConf.nftTimeout = 600 * second := by decide +kernel
    rw [hT]
    rcases hop with rfl | rfl <;> simp only [FwdOp.time, Option.some.injEq] at ht
    · subst ht; simp [second]
    · cases ht
  · intro h
    have := h ⟨examplePeer, .tcp, 22⟩ (by decide +kernel) rfl (.inl ⟨rfl, rfl⟩)
    revert this
    decide +kernel

/-- A configuration whose lease time (one second) is shorter than the control timeout (five seconds). -/
def shortConf : Config := { fwConf with nftTimeout := 1 * second }

/-- **C48** (negation of the full statement, expiry). The lease time may be configured shorter than the time the client waits for the
Come-In; the lease can then be over when the Come-In arrives. -/
theorem C48_negation_expired : ∃ mac sconf fconf peer u r key n k0 s0 evs L res, ChainOf fconf n ∧
    fwdStart fconf k0 true = some s0 ∧ TrioRun mac sconf fconf peer u r key s0 evs (some (.ok ())) L ∧
    Fair fconf n s0 (fwdOps evs) ∧ Within fconf.controlTimeout (fwdOps evs) ∧ sconf.resource r = some res ∧
    sconf.resource r = fconf.resource r ∧ L.fwd.phase = .running ∧ ¬ OpenFor n L.fwd.kernel peer res := by
  have hst : fwdStart shortConf fwKernel true = some fwStarted := by
    have h : fwdStart shortConf fwKernel true = fwdStart fwConf fwKernel true := rfl
    rw [h]; exact fwStarted_ok
  refine ⟨toyMac, exampleConf, shortConf, examplePeer, ⟨0xA423DDA7⟩, ⟨0xBC5D8077⟩, Arr.replicate 32 7, fwNames, fwKernel, fwStarted,
    trioEvs [.maintain (3 * second) calmEnv], trioEnd shortConf fwStarted [.maintain (3 * second) calmEnv],
    { port := 22, tcp := true, udp := false, users := [] },
    ⟨by decide, rfl, rfl, by decide, by decide⟩, hst, trioEnd_ok (by decide +kernel),
    ⟨trivial, ⟨fun _ => ⟨rfl, Nat.le_refl _⟩, fun _ => ⟨rfl, Nat.le_refl _⟩⟩, trivial⟩, ⟨second, ?_⟩, by decide +kernel,
    by decide +kernel, by decide +kernel, ?_⟩
  · intro op hop t ht
    simp only [trioEvs, fwdOps, List.map_cons, List.map_nil, List.cons_append, List.nil_append,
      List.filterMap_cons, List.filterMap_nil, List.mem_cons, List.not_mem_nil, or_false] at hop
    have hT : shortConf.controlTimeout = 5 * second := by decide +kernel
    rw [hT]
    rcases hop with rfl | rfl <;> simp only [FwdOp.time, Option.some.injEq] at ht <;> subst ht <;> simp [second]
  · intro h
    have := h ⟨examplePeer, .tcp, 22⟩ (by decide +kernel) rfl (.inl ⟨rfl, rfl⟩)
    revert this
    decide +kernel

end Letmein.Props
