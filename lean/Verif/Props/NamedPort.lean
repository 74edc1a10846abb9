import Verif.Props.TrioExact
import Verif.Props.Knock

/-!
# Property C123: the port named on the command line is the port that opens

`/repo/letmein/src/command/knock.rs:160-241`: the client looks the port of the command line up in its own configuration and sends the identifier of the
resource only. Which port that is at the server, and with which protocols, letmeind finds in its configuration (`/repo/letmeind/src/protocol.rs`).
-/

namespace Letmein.Spec
open Letmein

/-- What `letmein knock HOST PORT` asks for: the user of the command line or the default one, their key, and a resource which has this port in the
client's configuration and which they may use. -/
structure AsksFor (conf : Config) (port : UInt16) (user : Option UserId) (u : UserId) (r : ResourceId) (key : Key) : Prop where
  who : user = some u ∨ (user = none ∧ conf.defaultUser = u)
  key : conf.key u = some key
  what : ∃ res, (r, res) ∈ conf.resources ∧ res.port = port ∧ (res.users = [] ∨ u ∈ res.users)

/-- The resource has the protocol. -/
def HasProto (res : Resource) (proto : L4) : Prop := (proto = .tcp ∧ res.tcp = true) ∨ (proto = .udp ∧ res.udp = true)

end Letmein.Spec

namespace Letmein.Props
open Letmein Prog Spec

/-- **C123** (what is asked for). The exchange of messages is only ever done for what the command line asks for: the outcome of the command does not depend on
what an exchange for anything else would result in. -/
theorem C123_asks (parseIp : ParseIp) (dns : Dns) (opens : Opens) (x x' : UserId → ResourceId → Key → NetAct → R Unit) (conf : Config)
    (server : KnockServer) (port : UInt16) (user : Option UserId) (srv : ResSrv) (crypt : ResCrypt)
    (h : ∀ u r key, AsksFor conf port user u r key → x u r key = x' u r key) :
    runKnock parseIp dns opens x conf server port user srv crypt = runKnock parseIp dns opens x' conf server port user srv crypt := by
  unfold runKnock
  simp only
  cases hk : conf.key (user.getD conf.defaultUser) with
  | none => rfl
  | some key =>
    simp only
    cases hr : conf.resourceIdByPort port (some (user.getD conf.defaultUser)) with
    | none => rfl
    | some r =>
      simp only
      rw [h _ r key ⟨?_, hk, ?_⟩]
      · cases user
        · exact .inr ⟨rfl, rfl⟩
        · exact .inl rfl
      · obtain ⟨res, h1, h2, h3⟩ := resourceIdByPort_sound hr
        refine ⟨res, h1, h2, ?_⟩
        have := h3 _ rfl
        unfold Resource.containsUser at this
        cases hu : res.users with
        | nil => exact .inl rfl
        | cons a l => rw [hu] at this; right; simpa using this

/-- **C123** (exactly). `letmein knock HOST PORT` has succeeded, the exchange took less than the lease time, and letmeinfwd is running. There is the request
of this knock in letmeinfwd's history; if no other request has opened the port of the command line for this host, then a packet of the host to that port
is let in exactly if the resource has this port, and the packet's protocol, in letmeind's configuration. (So this holds of the port of the command line,
`AsksFor`, and what the client's configuration says about the resource's protocols does not matter.) -/
theorem C123_iff (mac : MacFn) (sconf fconf : Config) (peer : IpAddr) (port : UInt16) (u : UserId) (r : ResourceId)
    (key : Key) (n : NftNames) (hn : ChainOf fconf n) (k0 : Kernel) (startOk : Bool) (sI : FwdState)
    (hstart : fwdStart fconf k0 startOk = some sI) (before : List FwdOp) (evs : List TrioEv) (L : Links)
    (hrun : TrioRun mac sconf fconf peer u r key (fwdRun fconf sI before).2 evs (some (.ok ())) L)
    (hfair : Fair fconf n sI (before ++ fwdOps evs)) (htime : Within fconf.nftTimeout (fwdOps evs)) (hup : L.fwd.phase = .running)
    (hctl : port ≠ fconf.port.port) :
    ∃ res i, sconf.resource r = some res ∧ (∃ x a p to, (fwdRun fconf sI (before ++ fwdOps evs)).1[i]? = some x ∧ granted x.1 x.2 = some (a, p, to) ∧ a = peer) ∧
      (OpenedOnce (fwdRun fconf sI (before ++ fwdOps evs)).1 i peer port →
        ∀ proto, chainAccepts n L.fwd.kernel ⟨hostOf peer, proto, port⟩ = true ↔ res.port = port ∧ HasProto res proto) := by
  obtain ⟨res, pt, a, b, now, ok, reply, hres, ht, hu, hops, hans, hack⟩ := success_acknowledged hrun
  have hL := linkRun_fwd hrun.links
  have hL' : L.fwd = (fwdRun fconf sI (before ++ fwdOps evs)).2 := by rw [fwdRun_append]; exact hL
  have hg := granted_newOpen (peer := peer) (pt := pt) (port := res.port) (now := now) (ok := ok) hack
  obtain ⟨res', hres', hopen⟩ := C48_success_means_open_partial mac sconf fconf peer u r key n hn k0 startOk sI hstart before evs L hrun hfair htime
    (by rw [hup]; simp)
  rw [hres] at hres'
  injection hres' with hres'
  subst hres'
  rw [hL'] at hup hopen ⊢
  obtain ⟨h1, h2, hsplit, hlen⟩ : ∃ h1 h2, (fwdRun fconf sI (before ++ fwdOps evs)).1 =
      h1 ++ (FwdOp.request (.msg (FwMessage.newOpen peer pt res.port)) now ok, some reply) :: h2 ∧ h1.length = before.length + a.length := by
    refine ⟨(fwdRun fconf sI (before ++ a)).1,
      (fwdRun fconf (fwdRun fconf sI (before ++ a ++ [.request (.msg (FwMessage.newOpen peer pt res.port)) now ok])).2 b).1, ?_,
      by rw [fwdRun_length, List.length_append]⟩
    rw [hops, ← List.append_assoc, fwdRun_append]
    refine congrArg (_ ++ ·) ?_
    simp only [fwdRun]
    rw [fwdRun_append] at *
    simp only [fwdRun_append, fwdRun] at *
    rw [hans]
  refine ⟨res, before.length + a.length, hres, ⟨(.request (.msg (FwMessage.newOpen peer pt res.port)) now ok, some reply), peer, _, now, by rw [hsplit, ← hlen]; simp, hg, rfl⟩, fun hone proto => ⟨fun hacc => ?_, ?_⟩⟩
  · rcases (C19_chain_equals_grants fconf n hn k0 startOk sI hstart _ hfair hup _).1 hacc with ⟨_, hc⟩ | ⟨addr, p, e, hgr, hc⟩
    · exact absurd hc.1 hctl
    · rcases grants_origin hgr with ⟨h, _⟩ | ⟨h1', x, h2', to, hh, hx, _, _⟩
      · simp [Grants.none] at h
      · by_cases hj : h1'.length = before.length + a.length
        · rw [hsplit] at hh
          obtain ⟨_, h3⟩ := List.append_inj hh (by rw [hlen, hj])
          injection h3 with h3 h4
          subst h3
          rw [hg] at hx
          injection hx with hx
          simp only [Prod.mk.injEq] at hx
          obtain ⟨rfl, rfl, rfl⟩ := hx
          obtain ⟨_, hc⟩ := hc
          cases pt <;> simp only [opensTcp, opensUdp] at ht hu <;> simp only [selection, portCovers] at hc
          · exact ⟨hc.2.symm, .inl ⟨hc.1, ht.symm⟩⟩
          · exact ⟨hc.2.symm, .inr ⟨hc.1, hu.symm⟩⟩
          · refine ⟨hc.symm, ?_⟩
            cases proto
            · exact .inl ⟨rfl, ht.symm⟩
            · exact .inr ⟨rfl, hu.symm⟩
        · refine absurd ⟨rfl, rfl⟩ (hone h1'.length x ?_ hj addr p to _ hx hc)
          rw [hh]
          simp
  · rintro ⟨rfl, hp⟩
    exact hopen _ rfl rfl hp

/-- **C123**. `letmein knock HOST PORT` has succeeded, the exchange took less than the lease time, and letmeinfwd has not been shut down: if client and server agree about the port
of the resource, this port is open for the client's address with every protocol that the resource has at the server. Missing: the configurations may disagree
(`C123_negation`). -/
theorem C123_named_partial (mac : MacFn) (cconf sconf fconf : Config) (peer : IpAddr) (port : UInt16) (user : Option UserId) (u : UserId) (r : ResourceId)
    (key : Key) (hask : AsksFor cconf port user u r key)
    (hagree : ∀ res res', (r, res) ∈ cconf.resources → sconf.resource r = some res' → res.port = res'.port)
    (n : NftNames) (hn : ChainOf fconf n) (k0 : Kernel) (startOk : Bool) (sI : FwdState)
    (hstart : fwdStart fconf k0 startOk = some sI) (before : List FwdOp) (evs : List TrioEv) (L : Links)
    (hrun : TrioRun mac sconf fconf peer u r key (fwdRun fconf sI before).2 evs (some (.ok ())) L)
    (hfair : Fair fconf n sI (before ++ fwdOps evs)) (htime : Within fconf.nftTimeout (fwdOps evs)) (hup : L.fwd.phase ≠ .stopped) :
    ∃ res, sconf.resource r = some res ∧ ∀ proto, HasProto res proto → chainAccepts n L.fwd.kernel ⟨hostOf peer, proto, port⟩ = true := by
  obtain ⟨res, hres, hopen⟩ := C48_success_means_open_partial mac sconf fconf peer u r key n hn k0 startOk sI hstart before evs L hrun hfair htime hup
  obtain ⟨resC, h1, h2, _⟩ := hask.what
  exact ⟨res, hres, fun proto hp => hopen _ rfl (by rw [← h2]; exact hagree resC res h1 hres) hp⟩

/-- A client's configuration in which the resource of the example has port 2222, instead of 22. -/
def otherPortConf : Config :=
  { exampleConf with resources := [(⟨0xBC5D8077⟩, { port := 2222, tcp := true, udp := false, users := [] })] }

/-- The hypotheses hold of the example's knock for port 22, and of a knock for port 2222 with the other configuration. -/
example : AsksFor exampleConf 22 (some ⟨0xA423DDA7⟩) ⟨0xA423DDA7⟩ ⟨0xBC5D8077⟩ (Arr.replicate 32 7) ∧
    AsksFor otherPortConf 2222 (some ⟨0xA423DDA7⟩) ⟨0xA423DDA7⟩ ⟨0xBC5D8077⟩ (Arr.replicate 32 7) ∧
    TrioRun toyMac exampleConf fwConf examplePeer ⟨0xA423DDA7⟩ ⟨0xBC5D8077⟩ (Arr.replicate 32 7) fwStarted (trioEvs []) (some (.ok ()))
      (trioEnd fwConf fwStarted []) ∧ Within fwConf.nftTimeout (fwdOps (trioEvs [])) ∧ (trioEnd fwConf fwStarted []).fwd.phase = .running ∧
    OpenedOnce (fwdRun fwConf fwStarted ([] ++ fwdOps (trioEvs []))).1 0 examplePeer 22 := by
  refine ⟨⟨.inl rfl, by decide, { port := 22, tcp := true, udp := false, users := [] }, by simp [exampleConf], rfl, .inl rfl⟩, ⟨.inl rfl, by decide, { port := 2222, tcp := true, udp := false, users := [] }, by simp [otherPortConf], rfl, .inl rfl⟩,
    trioEnd_ok (by decide +kernel), ⟨second, ?_⟩, by decide +kernel, ?_⟩
  · intro op hop t ht
    simp only [trioEvs, fwdOps, List.map_nil, List.append_nil, List.cons_append, List.nil_append,
      List.filterMap_cons, List.filterMap_nil, List.mem_cons, List.not_mem_nil, or_false] at hop
    have hT : fwConf.nftTimeout = 600 * second := by decide +kernel
    rw [hT]
    subst hop
    simp only [FwdOp.time, Option.some.injEq] at ht
    subst ht
    simp [second]
  · intro j x hj hne
    have hl := fwdRun_length fwConf fwStarted ([] ++ fwdOps (trioEvs []))
    have h1 : ([] ++ fwdOps (trioEvs [])).length = 1 := rfl
    rw [h1] at hl
    have := (List.getElem?_eq_some_iff.1 hj).1
    omega

/-- **C123** (negation of the full statement). In the client's configuration the resource has port 2222, in the server's it has port 22. `letmein knock HOST 2222` succeeds: port
22 is open, port 2222 is not. -/
theorem C123_negation : ∃ mac cconf sconf fconf peer port user u r key n k0 s0 evs L, AsksFor cconf port user u r key ∧ ChainOf fconf n ∧
    fwdStart fconf k0 true = some s0 ∧ TrioRun mac sconf fconf peer u r key s0 evs (some (.ok ())) L ∧ Fair fconf n s0 (fwdOps evs) ∧
    L.fwd.phase = .running ∧ (∀ proto, chainAccepts n L.fwd.kernel ⟨hostOf peer, proto, port⟩ = false) ∧
    chainAccepts n L.fwd.kernel ⟨hostOf peer, .tcp, 22⟩ = true := by
  refine ⟨toyMac, otherPortConf, exampleConf, fwConf, examplePeer, 2222, some ⟨0xA423DDA7⟩, ⟨0xA423DDA7⟩, ⟨0xBC5D8077⟩, Arr.replicate 32 7, fwNames, fwKernel,
    fwStarted, trioEvs [], trioEnd fwConf fwStarted [], ⟨.inl rfl, by decide, { port := 2222, tcp := true, udp := false, users := [] }, by simp [otherPortConf], rfl, .inl rfl⟩,
    ⟨by decide, rfl, rfl, by decide, by decide⟩, fwStarted_ok, trioEnd_ok (by decide +kernel), ⟨trivial, trivial⟩, by decide +kernel, ?_, by decide +kernel⟩
  intro proto
  cases proto <;> decide +kernel

end Letmein.Props
