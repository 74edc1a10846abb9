import Verif.Model.System
import Verif.Props.Daemon
import Verif.Props.Network
import Verif.Props.RunDir

/-!
# Property C63: only the key holders' addresses get in
-/

namespace Letmein.Spec

/-- The packet comes from the peer and goes to the resource, by a protocol configured for it. -/
def EntersResource (peer : IpAddr) (res : Resource) (pkt : Packet) : Prop :=
  pkt.src = hostOf peer ∧ pkt.dport = res.port ∧ ((pkt.proto = .tcp ∧ res.tcp = true) ∨ (pkt.proto = .udp ∧ res.udp = true))

/-- In the history `pre`, session `sid` of letmeind, for a connection from `peer`, has been answered by a holder of the key of a user who is permitted to
use the resource; or the MAC was broken. -/
structure Admitted (mac : MacFn) (who : Nat → Party) (pre : List GEv) (sid : Nat) (peer : IpAddr) (res : Resource) : Prop where
  ok : ∃ conf u r key nonce, who sid = .server conf peer ∧ conf.key u = some key ∧ Granted conf u r res ∧ (sid, ⟨.rand32, some nonce⟩) ∈ pre ∧
    ((∃ g1 cid ev g2, pre = g1 ++ (cid, ev) :: g2 ∧ Answers mac who g1 cid ev key u r nonce) ∨ Forgery mac who pre key ∨ CollisionInRun mac who pre key)

end Letmein.Spec

namespace Letmein.Props

open Letmein Prog Spec

theorem sessionEvs_append (a b : List SysEv) : sessionEvs (a ++ b) = sessionEvs a ++ sessionEvs b := by simp [sessionEvs]
theorem fwdEvents_append (a b : List SysEv) : fwdEvents (a ++ b) = fwdEvents a ++ fwdEvents b := by simp [fwdEvents]

/-- An event of letmeinfwd in the whole history. -/
theorem fwdEvents_split {evs : List SysEv} {a : List FwdEvent} {ev : FwdEvent} {b : List FwdEvent} (h : fwdEvents evs = a ++ ev :: b) :
    ∃ a' b', evs = a' ++ .fwd ev :: b' ∧ fwdEvents a' = a ∧ fwdEvents b' = b := by
  induction evs generalizing a with
  | nil => simp [fwdEvents] at h
  | cons x rest ih =>
    cases x with
    | session sid e =>
      obtain ⟨a', b', rfl, h1, h2⟩ := ih (a := a) (by simpa [fwdEvents] using h)
      exact ⟨.session sid e :: a', b', rfl, by simpa [fwdEvents] using h1, h2⟩
    | fwd y =>
      replace h : y :: fwdEvents rest = a ++ ev :: b := h
      cases a with
      | nil =>
        simp only [List.nil_append, List.cons.injEq] at h
        obtain ⟨rfl, rfl⟩ := h
        exact ⟨[], rest, rfl, rfl, rfl⟩
      | cons z a =>
        simp only [List.cons_append, List.cons.injEq] at h
        obtain ⟨rfl, h⟩ := h
        obtain ⟨a', b', rfl, h1, h2⟩ := ih h
        exact ⟨.fwd y :: a', b', rfl, by simpa [fwdEvents] using h1, h2⟩

theorem maintain_mem_lifeOps {setup : FwdSetup} {s : FwdLife} {l : List FwdEvent} {tm : Nat} {env : NftEnv} (h : .maintain tm env ∈ l) :
    FwdOp.maintain tm env ∈ lifeOps setup s l := by
  induction l generalizing s with
  | nil => cases h
  | cons ev rest ih =>
    rw [lifeOps, List.mem_append]
    rcases List.mem_cons.1 h with rfl | h
    · exact .inl (by simp [FwdLife.opOf])
    · exact .inr (ih h)

/-- An acknowledged request came from one of letmeind's sessions. -/
theorem granted_session {mac : MacFn} {who : Nat → Party} {passwd group : Option Str} {conf : Config} {k0 k1 : Kernel} {nftOk : Bool}
    {limit : Nat} {listener : UInt32 × UInt32 → R UnixListener} {setup : FwdSetup} {s0 : FwdLife} {pid : UInt32}
    (h0 : lifeStart false passwd group conf k0 nftOk limit listener = (k1, .ok (setup, s0))) {evs : List SysEv}
    (hrun : SystemRun mac who setup s0 pid evs) {x : FwdOp × Option FwMessage}
    (hx : x ∈ (fwdRun setup.conf s0.core (lifeOps setup s0 (fwdEvents evs))).1) {addr : IpAddr} {p : LeasePort} {to : Nat}
    (hg : granted x.1 x.2 = some (addr, p, to)) {pkt : Packet} (hcov : covers addr p pkt) :
    ∃ a sid e mid id m ok c peer res, evs = a ++ .session sid e :: (mid ++ .fwd (.message id (.msg m) to ok) :: c) ∧ fwReq e = some m ∧
      EntersResource peer res pkt ∧ Admitted mac who (sessionEvs a) sid peer res := by
  obtain ⟨_, htest, hids, hconns, _, _, _, _, _⟩ := lifeStart_ok h0
  obtain ⟨op, reply⟩ := x
  obtain ⟨m, t, port, ok, hop, ha, hp, rfl⟩ := granted_inv hg
  simp only at hop
  have hmem : op ∈ lifeOps setup s0 (fwdEvents evs) := by
    rw [← fwdRun_ops setup.conf s0.core (lifeOps setup s0 (fwdEvents evs))]
    exact List.mem_map.2 ⟨_, hx, rfl⟩
  rw [hop] at hmem
  obtain ⟨f1, id, f2, hf, hid⟩ := request_of_message hmem
  rcases conn_of_connect hid with h | ⟨f3, cred, pf, f4, rfl, hidn, hacc⟩
  · rw [hconns] at h; cases h
  · rw [htest] at hacc
    obtain ⟨c, pid', p', _, _, rfl, hcp, rfl, hpt, _, _⟩ := (C26_served_iff passwd group pf cred).1 (by rw [hids, R.bind_ok]; exact hacc)
    obtain ⟨e1, e2, he, hf3, he2⟩ := fwdEvents_split (evs := evs) (a := f3) (ev := .connect (some c) (some p')) (b := f4 ++ .message id (.msg m) to ok :: f2) (by rw [hf]; simp)
    obtain ⟨e3, e4, rfl, hf4, _⟩ := fwdEvents_split he2
    have htext := hrun.pidFile (some c) p' (by rw [he]; simp)
    have hpid : pid' = (pid.toNat : Int) := by
      have h1 := (getLetmeindPid_iff (some p') pid').2 ⟨p', rfl, hpt⟩
      rw [htext, pidFileText_parse] at h1
      split at h1
      · injection h1 with h1; exact h1.symm
      · cases h1
    subst hpid
    subst hf3
    subst hidn
    obtain ⟨sid, sconf, peer, sent, hw, hs⟩ := hrun.unixSocket e1 c (some p') e3 m to ok e4 he hcp
    obtain ⟨a, mid, hsplit⟩ := List.append_of_mem hs
    have hevs : evs = a ++ .session sid ⟨.fwSend m, sent⟩ ::
        (mid ++ .fwd (.message (lifeRun setup s0 (fwdEvents e1)).nextId (.msg m) to ok) :: e4) := by
      rw [he, ← List.cons_append, ← List.append_assoc, hsplit]; simp
    have hsess : sessionEvs evs = sessionEvs a ++ (sid, ⟨.fwSend m, sent⟩) :: sessionEvs
        (mid ++ .fwd (.message (lifeRun setup s0 (fwdEvents e1)).nextId (.msg m) to ok) :: e4) := by
      rw [hevs, sessionEvs_append]; rfl
    obtain ⟨u, r, key, nonce, hest, hlive⟩ :=
      C15_request_needs_live_client mac who _ hrun.sessions sid sconf peer hw _ _ _ hsess m rfl
    obtain ⟨res, pt, hgr, hm, ht, hu⟩ := hest.request
    obtain ⟨q1, q2, resp, hq, hn, _⟩ := hest.accepted
    refine ⟨a, sid, ⟨.fwSend m, sent⟩, mid, _, m, ok, e4, peer, res, hevs, rfl, ?_, ⟨sconf, u, r, key, nonce, hw, hest.known, hgr, ?_, hlive⟩⟩
    · rw [hm, newOpen_getAddr] at ha
      injection ha with ha
      subst ha
      have hp' : (FwMessage.newOpen peer pt res.port).getPort = some (pt, res.port) := rfl
      rw [hm, hp'] at hp
      injection hp with hp
      injection hp with hp1 hp2
      subst hp1
      subst hp2
      exact ⟨hcov.1.symm, opens_selection ht hu hcov.2⟩
    · rw [hq]; simp [hn]

/-- **C63**. Any number of clients and sessions, a network that does whatever the attacker wants, any processes connecting to letmeinfwd and
sending anything, failures at any point: a packet that letmeinfwd's chain accepts goes to an enabled control port; or it comes from the
address, and goes to the port and by the protocol, of a session of letmeind that asked for exactly this after a holder of the key of a permitted
user had answered its challenge (or the MAC was broken). -/
theorem C63_only_key_holders_get_in {mac : MacFn} {who : Nat → Party} {passwd group : Option Str} {conf : Config} {n : NftNames}
    (hn : ChainOf conf n) {k0 k1 : Kernel} {nftOk : Bool} {limit : Nat} {listener : UInt32 × UInt32 → R UnixListener} {setup : FwdSetup}
    {s0 : FwdLife} {pid : UInt32} (h0 : lifeStart false passwd group conf k0 nftOk limit listener = (k1, .ok (setup, s0))) (evs : List SysEv)
    (hrun : SystemRun mac who setup s0 pid evs) (hf : LifeFair setup n s0 (fwdEvents evs)) (pkt : Packet)
    (hacc : chainAccepts n (lifeRun setup s0 (fwdEvents evs)).core.kernel pkt = true) :
    toControlPort conf pkt ∨
      ∃ a sid e b m peer res, evs = a ++ .session sid e :: b ∧ fwReq e = some m ∧ EntersResource peer res pkt ∧
        Admitted mac who (sessionEvs a) sid peer res := by
  obtain ⟨hc, _, _, _, _, _, _, hstart, _⟩ := lifeStart_ok h0
  subst hc
  rw [lifeRun_core] at hacc
  rcases C20_never_unasked setup.conf n hn k0 nftOk s0.core hstart _ (lifeOps_fair hf) pkt hacc with h | ⟨x, hx, addr, p, to, hg, hcov⟩
  · exact .inl h
  · obtain ⟨a, sid, e, mid, id, m, ok, c, peer, res, h1, h2, h3, h4⟩ := granted_session h0 hrun hx hg hcov
    exact .inr ⟨a, sid, e, _, m, peer, res, h1, h2, h3, h4⟩

/-- **C63** (and not for long). While letmeinfwd runs, with clocks that do not go backwards and its last maintenance at most `P` ago, the request
was handled by letmeinfwd no longer than lease time plus `P` before. -/
theorem C63_for_bounded_time {mac : MacFn} {who : Nat → Party} {passwd group : Option Str} {conf : Config} {n : NftNames}
    (hn : ChainOf conf n) {k0 k1 : Kernel} {nftOk : Bool} {limit : Nat} {listener : UInt32 × UInt32 → R UnixListener} {setup : FwdSetup}
    {s0 : FwdLife} {pid : UInt32} (h0 : lifeStart false passwd group conf k0 nftOk limit listener = (k1, .ok (setup, s0))) (evs : List SysEv)
    (hrun : SystemRun mac who setup s0 pid evs) (hf : LifeFair setup n s0 (fwdEvents evs))
    (hup : (lifeRun setup s0 (fwdEvents evs)).core.phase = .running) (hch : Chronological (lifeOps setup s0 (fwdEvents evs)))
    (t P tm : Nat) (env : NftEnv) (hm : .maintain tm env ∈ fwdEvents evs) (ht : t ≤ tm + P) (pkt : Packet)
    (hacc : chainAccepts n (lifeRun setup s0 (fwdEvents evs)).core.kernel pkt = true) (hnc : ¬ toControlPort conf pkt) :
    ∃ a sid e mid id m to ok c peer res, evs = a ++ .session sid e :: (mid ++ .fwd (.message id (.msg m) to ok) :: c) ∧ fwReq e = some m ∧
      EntersResource peer res pkt ∧ Admitted mac who (sessionEvs a) sid peer res ∧ t ≤ to + conf.nftTimeout + P := by
  obtain ⟨hc, _, _, _, _, _, _, hstart, _⟩ := lifeStart_ok h0
  subst hc
  rw [lifeRun_core] at hacc hup
  have hmem := maintain_mem_lifeOps (setup := setup) (s := s0) hm
  obtain ⟨x, hx, addr, p, to, hg, hcov, hle⟩ :=
    C20_bounded setup.conf n hn k0 nftOk s0.core hstart _ (lifeOps_fair hf) hup hch t P tm env hmem ht pkt hacc hnc
  obtain ⟨a, sid, e, mid, id, m, ok, c, peer, res, h1, h2, h3, h4⟩ := granted_session h0 hrun hx hg hcov
  exact ⟨a, sid, e, mid, id, m, to, ok, c, peer, res, h1, h2, h3, h4, hle⟩

/-! ### A concrete history -/

/-- letmeind's session of `relayRun` asks for the port; letmeinfwd serves the request and runs its maintenance; a stranger connects in between. -/
def systemEvs : List SysEv :=
  (relayRun.take 13).map (fun e => .session e.1 e.2) ++
  ([.fwd (.connect lifePeer (some (pidFileText 1234))),
    .fwd (.message 0 (.msg (FwMessage.newOpen examplePeer .Tcp 22)) (1 * second) true),
    .fwd (.maintain (2 * second) calmEnv)] ++
  (relayRun.drop 13).map (fun e => .session e.1 e.2) ++ [.fwd (.connect none (some (pidFileText 1234)))])

theorem systemEvs_sessions : sessionEvs systemEvs = relayRun := by
  have h : ∀ l : List GEv, sessionEvs (l.map (fun e => .session e.1 e.2)) = l := by
    intro l
    induction l with
    | nil => rfl
    | cons x l ih => simp only [sessionEvs, List.map_cons, List.filterMap_cons] at ih ⊢; rw [ih]
  rw [systemEvs, sessionEvs_append, sessionEvs_append, sessionEvs_append, h, h]
  simp only [sessionEvs, List.filterMap_cons, List.filterMap_nil, List.nil_append, List.append_nil]
  exact List.take_append_drop 13 relayRun

theorem systemEvs_pidFile {cred : Option Cred} {text : Str} (h : SysEv.fwd (.connect cred (some text)) ∈ systemEvs) : text = pidFileText 1234 := by
  simp only [systemEvs, List.mem_append, List.mem_map, List.mem_cons, List.not_mem_nil, or_false, reduceCtorEq, and_false, exists_false,
    false_or, SysEv.fwd.injEq, FwdEvent.connect.injEq, Option.some.injEq] at h
  rcases h with h | h
  · exact h.2
  · exact h.2

theorem systemEvs_unixSocket {a : List SysEv} {cred : Cred} {pf : Option Str} {b : List SysEv} {id : Nat} {m : FwMessage} {now : Nat} {ok : Bool}
    {c : List SysEv} (he : systemEvs = a ++ .fwd (.connect (some cred) pf) :: (b ++ .fwd (.message id (.msg m) now ok) :: c)) :
    SysEv.session 1 ⟨.fwSend m, true⟩ ∈ a ++ .fwd (.connect (some cred) pf) :: b := by
  have hm : m = FwMessage.newOpen examplePeer .Tcp 22 := by
    have : SysEv.fwd (.message id (.msg m) now ok) ∈ systemEvs := by rw [he]; simp
    simp only [systemEvs, List.mem_append, List.mem_map, List.mem_cons, List.not_mem_nil, or_false, reduceCtorEq, and_false, exists_false,
      false_or, SysEv.fwd.injEq, FwdEvent.message.injEq, FwRecvOut.msg.injEq] at this
    exact this.2.1
  subst hm
  rw [systemEvs] at he
  have hin : SysEv.session 1 ⟨.fwSend (FwMessage.newOpen examplePeer .Tcp 22), true⟩ ∈ (relayRun.take 13).map (fun e => SysEv.session e.1 e.2) :=
    List.mem_map.2 ⟨(1, ⟨.fwSend (FwMessage.newOpen examplePeer .Tcp 22), true⟩), by simp [relayRun], rfl⟩
  rcases List.append_eq_append_iff.1 he with ⟨a', ha, _⟩ | ⟨c', hc, hx⟩
  · rw [ha]; exact List.mem_append_left _ (List.mem_append_left _ hin)
  · cases c' with
    | nil => rw [List.append_nil] at hc; rw [← hc]; exact List.mem_append_left _ hin
    | cons x c' =>
      rw [List.cons_append] at hx
      injection hx with hx _
      exfalso
      have : x ∈ (relayRun.take 13).map (fun e => SysEv.session e.1 e.2) := by rw [hc]; simp
      rw [← hx] at this
      obtain ⟨_, _, hne⟩ := List.mem_map.1 this
      cases hne

theorem systemEvs_run (setup : FwdSetup) (s0 : FwdLife) : SystemRun toyMac (relayWho examplePeer) setup s0 1234 systemEvs := by
  refine ⟨by rw [systemEvs_sessions]; exact relayRun_run _, fun cred text h => systemEvs_pidFile h, ?_⟩
  intro a cred pf b m now ok c he _
  exact ⟨1, exampleConf, examplePeer, true, rfl, systemEvs_unixSocket he⟩

/-- The hypotheses of both theorems are met by a history after which a packet to port 22 is accepted, which is not the control port. -/
example : ∃ k1 setup s0, lifeStart false (some lifePasswd) (some lifeGroup) fwConf fwKernel true 8 (fun _ => .ok (.systemd 3)) = (k1, .ok (setup, s0)) ∧
    SystemRun toyMac (relayWho examplePeer) setup s0 1234 systemEvs ∧ LifeFair setup fwNames s0 (fwdEvents systemEvs) ∧
    (lifeRun setup s0 (fwdEvents systemEvs)).core.phase = .running ∧ Chronological (lifeOps setup s0 (fwdEvents systemEvs)) ∧
    .maintain (2 * second) calmEnv ∈ fwdEvents systemEvs ∧
    chainAccepts fwNames (lifeRun setup s0 (fwdEvents systemEvs)).core.kernel ⟨examplePeer, .tcp, 22⟩ = true ∧
    ¬ toControlPort fwConf ⟨examplePeer, .tcp, 22⟩ := by
  have hb : lifeBegin.isSome = true := by decide +kernel
  obtain ⟨⟨setup, s0⟩, hs⟩ := Option.isSome_iff_exists.1 hb
  have hl : ∃ k1, lifeStart false (some lifePasswd) (some lifeGroup) fwConf fwKernel true 8 (fun _ => .ok (.systemd 3)) = (k1, .ok (setup, s0)) := by
    unfold lifeBegin at hs
    split at hs
    · rename_i k1 x hx
      injection hs with hs
      subst hs
      exact ⟨k1, hx⟩
    · cases hs
  obtain ⟨k1, hl⟩ := hl
  have hev : fwdEvents systemEvs = [.connect lifePeer (some (pidFileText 1234)),
      .message 0 (.msg (FwMessage.newOpen examplePeer .Tcp 22)) (1 * second) true, .maintain (2 * second) calmEnv,
      .connect none (some (pidFileText 1234))] := by
    simp [systemEvs, fwdEvents, relayRun]
  have hfacts : (lifeBegin.map fun x => (lifeRun x.1 x.2 (fwdEvents systemEvs)).core.phase) = some .running ∧
      (lifeBegin.map fun x => chainAccepts fwNames (lifeRun x.1 x.2 (fwdEvents systemEvs)).core.kernel ⟨examplePeer, .tcp, 22⟩) = some true ∧
      (lifeBegin.map fun x => (lifeOps x.1 x.2 (fwdEvents systemEvs)).filterMap FwdOp.time) = some [1 * second, 2 * second] := by
    rw [hev]; decide +kernel
  rw [hs] at hfacts
  simp only [Option.map_some, Option.some.injEq] at hfacts
  refine ⟨k1, setup, s0, hl, systemEvs_run setup s0, ?_, hfacts.1, ?_, ?_, hfacts.2.1, fun h => absurd h.1 (by decide)⟩
  · rw [hev]
    exact ⟨trivial, trivial, ⟨fun _ => ⟨rfl, Nat.le_refl _⟩, fun _ => ⟨rfl, Nat.le_refl _⟩⟩, trivial, trivial⟩
  · unfold Chronological; rw [hfacts.2.2]; decide
  · rw [hev]; simp

end Letmein.Props
