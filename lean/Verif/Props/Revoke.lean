import Verif.Props.Shipped

/-!
# Property C114: access that was revoked ends in time
-/

namespace Letmein.Spec

/-- A history in which letmeind is restarted while letmeinfwd goes on running: `old`, then the restart, then `new`. Any number of letmeinds may have run in `old`, with any configurations; `pids` are
the pids of all of them. Since the restart there are only sessions of `lm`. The programs follow their code; beyond that, facts about the operating system: nobody but letmeind writes its pid file; what
letmeinfwd reads from a connection of a letmeind was sent by one of its sessions; and what it reads after `T` was sent after the restart, as nothing sent earlier is under way any more. -/
structure RestartedRun (mac : MacFn) (who : Nat → Party) (fwd : FwdProc) (pids : UInt32 → Prop) (lm : LmProc) (T : Nat) (old new : List SysEv) : Prop where
  sessions : GlobalRun mac who (sessionEvs (old ++ new))
  server : ∀ sid e conf peer, SysEv.session sid e ∈ new → who sid = .server conf peer → conf = lm.conf
  pidFile : ∀ cred text, SysEv.fwd (.connect cred (some text)) ∈ old ++ new → ∃ pid, pids pid ∧ text = pidFileText pid
  unixSocket : ∀ a cred pf b m now ok c pid,
    old ++ new = a ++ .fwd (.connect (some cred) pf) ::
      (b ++ .fwd (.message (lifeRun fwd.setup fwd.life (fwdEvents a)).nextId (.msg m) now ok) :: c) →
    pids pid → cred.pid = some (pid.toNat : Int) →
    ∃ sid conf peer sent a' b', who sid = .server conf peer ∧ a ++ .fwd (.connect (some cred) pf) :: b = a' ++ SysEv.session sid ⟨.fwSend m, sent⟩ :: b' ∧
      (T < now → old <+: a')

end Letmein.Spec

namespace Letmein.Props

open Letmein Prog Spec

/-- An acknowledged request came from a session of one of the letmeinds; if it was handled after `T`, of the last one. -/
theorem granted_restarted {mac : MacFn} {who : Nat → Party} {oF : FwdOpts} {wF : FwdWorld} {kF : Kernel} {fwd : FwdProc}
    (hF : fwdMain oF wF = (kF, .ok fwd)) (htest : oF.testMode = false) {pids : UInt32 → Prop} {lm : LmProc} {T : Nat} {old new : List SysEv}
    (hrun : RestartedRun mac who fwd pids lm T old new) {x : FwdOp × Option FwMessage}
    (hx : x ∈ (fwdRun fwd.setup.conf fwd.life.core (lifeOps fwd.setup fwd.life (fwdEvents (old ++ new)))).1) {addr : IpAddr} {p : LeasePort} {to : Nat}
    (hg : granted x.1 x.2 = some (addr, p, to)) {pkt : Packet} (hcov : covers addr p pkt) :
    ∃ a sid e b m peer res, old ++ new = a ++ .session sid e :: b ∧ fwReq e = some m ∧ EntersResource peer res pkt ∧
      Admitted mac who (sessionEvs a) sid peer res ∧ (T < to → old <+: a) := by
  have h0 := fwdMain_lifeStart hF
  rw [htest] at h0
  obtain ⟨_, htest, hids, hconns, _, _, _, _, _⟩ := lifeStart_ok h0
  obtain ⟨op, reply⟩ := x
  obtain ⟨m, t, port, ok, hop, ha, hp, rfl⟩ := granted_inv hg
  simp only at hop
  have hmem : op ∈ lifeOps fwd.setup fwd.life (fwdEvents (old ++ new)) := by
    rw [← fwdRun_ops fwd.setup.conf fwd.life.core (lifeOps fwd.setup fwd.life (fwdEvents (old ++ new)))]
    exact List.mem_map.2 ⟨_, hx, rfl⟩
  rw [hop] at hmem
  obtain ⟨f1, id, f2, hf, hid⟩ := request_of_message hmem
  rcases conn_of_connect hid with h | ⟨f3, cred, pf, f4, rfl, hidn, hacc⟩
  · rw [hconns] at h; cases h
  · rw [htest] at hacc
    obtain ⟨c, pid', p', _, _, rfl, hcp, rfl, hpt, _, _⟩ := (C26_served_iff wF.passwd wF.group pf cred).1 (by rw [hids, R.bind_ok]; exact hacc)
    obtain ⟨e1, e2, he, hf3, he2⟩ := fwdEvents_split (evs := old ++ new) (a := f3) (ev := .connect (some c) (some p'))
      (b := f4 ++ .message id (.msg m) to ok :: f2) (by rw [hf]; simp)
    obtain ⟨e3, e4, rfl, hf4, _⟩ := fwdEvents_split he2
    obtain ⟨pid, hpids, htext⟩ := hrun.pidFile (some c) p' (by rw [he]; simp)
    have hpid : pid' = (pid.toNat : Int) := by
      have h1 := (getLetmeindPid_iff (some p') pid').2 ⟨p', rfl, hpt⟩
      rw [htext, pidFileText_parse] at h1
      split at h1
      · injection h1 with h1; exact h1.symm
      · cases h1
    subst hpid
    subst hf3
    subst hidn
    obtain ⟨sid, sconf, peer, sent, a, mid, hw, hsplit, hlate⟩ := hrun.unixSocket e1 c (some p') e3 m to ok e4 pid he hpids hcp
    have hevs : old ++ new = a ++ .session sid ⟨.fwSend m, sent⟩ ::
        (mid ++ .fwd (.message (lifeRun fwd.setup fwd.life (fwdEvents e1)).nextId (.msg m) to ok) :: e4) := by
      rw [he, ← List.cons_append, ← List.append_assoc, hsplit]; simp
    have hsess : sessionEvs (old ++ new) = sessionEvs a ++ (sid, ⟨.fwSend m, sent⟩) :: sessionEvs
        (mid ++ .fwd (.message (lifeRun fwd.setup fwd.life (fwdEvents e1)).nextId (.msg m) to ok) :: e4) := by
      rw [hevs, sessionEvs_append]; rfl
    obtain ⟨u, r, key, nonce, hest, hlive⟩ :=
      C15_request_needs_live_client mac who _ hrun.sessions sid sconf peer hw _ _ _ hsess m rfl
    obtain ⟨res, pt, hgr, hm, ht, hu⟩ := hest.request
    obtain ⟨q1, q2, resp, hq, hn, _⟩ := hest.accepted
    refine ⟨a, sid, ⟨.fwSend m, sent⟩, _, m, peer, res, hevs, rfl, ?_, ⟨sconf, u, r, key, nonce, hw, hest.known, hgr, ?_, hlive⟩, hlate⟩
    · rw [hm, newOpen_getAddr] at ha
      injection ha with ha
      subst ha
      have hp' : (FwMessage.newOpen peer pt res.port).getPort = some (pt, res.port) := rfl
      rw [hm, hp'] at hp
      injection hp with hp
      injection hp with hp1 hp2
      subst hp1
      subst hp2
      exact ⟨hcov.1.symm, opens_selection ht hu hcov.2⟩
    · rw [hq]; simp [hn]

/-- **C114** (in time). letmeind has been restarted with an edited file, while letmeinfwd goes on running. As soon as lease time and period of the maintenance have passed since the last request of an
earlier letmeind was handled: a packet that the chain accepts, other than to the control port, is covered by what the *new* file grants to a user whose key the *new* file has; a holder of this key has
answered the challenge (or the MAC was broken). -/
theorem C114_revoked {mac : MacFn} {who : Nat → Party} {oF : FwdOpts} {wF : FwdWorld} (hoF : IsOrder wF.order) {kF : Kernel} {fwd : FwdProc}
    (hF : fwdMain oF wF = (kF, .ok fwd)) (htest : oF.testMode = false) {dF : Doc} (hdF : FileDoc wF.file dF)
    {timeout : Duration} (htimeout : Given dF "NFTABLES" "timeout" (DurationText wF.f64) 600000000000 timeout)
    {oL : LmOpts} {wL : LmWorld} (hoL : IsOrder wL.order) {lm : LmProc} (hL : lmMain oL wL = .ok lm) {dL : Doc} (hdL : FileDoc wL.file dL)
    {n : NftNames} (hn : DocChain dF n) {pids : UInt32 → Prop} {T : Nat} {old new : List SysEv} (hrun : RestartedRun mac who fwd pids lm T old new)
    (hf : LifeFair fwd.setup n fwd.life (fwdEvents (old ++ new))) (hup : (lifeRun fwd.setup fwd.life (fwdEvents (old ++ new))).core.phase = .running)
    (hch : Chronological (lifeOps fwd.setup fwd.life (fwdEvents (old ++ new))))
    {t P tm : Nat} {env : NftEnv} (hm : .maintain tm env ∈ fwdEvents (old ++ new)) (ht : t ≤ tm + P) (hlate : T + timeout + P < t) (pkt : Packet)
    (hacc : chainAccepts n (lifeRun fwd.setup fwd.life (fwdEvents (old ++ new))).core.kernel pkt = true) (hnc : ¬ ToDocControlPort dF pkt) :
    ∃ a sid e b m peer u r res key nonce, new = a ++ .session sid e :: b ∧ fwReq e = some m ∧ EntersResource peer res pkt ∧
      DocGrants dL u r res ∧ DocKey dL u key ∧ (sid, ⟨.rand32, some nonce⟩) ∈ sessionEvs (old ++ a) ∧
      ((∃ g1 cid ev g2, sessionEvs (old ++ a) = g1 ++ (cid, ev) :: g2 ∧ Answers mac who g1 cid ev key u r nonce) ∨
        Forgery mac who (sessionEvs (old ++ a)) key ∨ CollisionInRun mac who (sessionEvs (old ++ a)) key) := by
  obtain ⟨cF, vF⟩ := fwdMain_conf hoF hF hdF
  obtain ⟨cL, vL, _⟩ := lmMain_conf hoL hL hdL
  obtain ⟨_, _, _, _, _, _, _, hstart, _⟩ := lifeStart_ok (fwdMain_lifeStart hF)
  have hto := cF.nftTimeout
  rw [if_pos vF] at hto
  have hto : fwd.setup.conf.nftTimeout = timeout := given_unique (fileDoc_nodup hdF) (unique_of_parse parseDuration_iff) hto htimeout
  rw [← hto] at hlate
  rw [lifeRun_core] at hacc hup
  obtain ⟨x, hx, addr, p, to, hg, hcov, hle⟩ :=
    C20_bounded fwd.setup.conf n (chainOf_doc (fileDoc_nodup hdF) cF vF hn) _ _ fwd.life.core hstart _ (lifeOps_fair hf) hup hch t P tm env
      (maintain_mem_lifeOps hm) ht pkt hacc (fun h => hnc ⟨_, cF.port, h⟩)
  obtain ⟨a, sid, e, b, m, peer, res, h1, h2, h3, ⟨conf, u, r, key, nonce, hw, hk, hgr, hnon, hans⟩, h5⟩ := granted_restarted hF htest hrun hx hg hcov
  obtain ⟨a', rfl⟩ := h5 (by omega)
  rw [List.append_assoc] at h1
  have h1 := List.append_cancel_left h1
  have := hrun.server sid e conf peer (by rw [h1]; simp) hw
  subst this
  exact ⟨a', sid, e, b, m, peer, u, r, res, key, nonce, h1, h2, h3, (docGrants_iff (fileDoc_nodup hdL) cL).1 hgr, (cL.keys.keys _ _).1 hk, hnon, hans⟩

/-- **C114** (a port that nobody may use any more). If the new file grants no resource with this port and protocol to any user whose key it has, then the port is closed, for everybody. -/
theorem C114_port_closed {mac : MacFn} {who : Nat → Party} {oF : FwdOpts} {wF : FwdWorld} (hoF : IsOrder wF.order) {kF : Kernel} {fwd : FwdProc}
    (hF : fwdMain oF wF = (kF, .ok fwd)) (htest : oF.testMode = false) {dF : Doc} (hdF : FileDoc wF.file dF)
    {timeout : Duration} (htimeout : Given dF "NFTABLES" "timeout" (DurationText wF.f64) 600000000000 timeout)
    {oL : LmOpts} {wL : LmWorld} (hoL : IsOrder wL.order) {lm : LmProc} (hL : lmMain oL wL = .ok lm) {dL : Doc} (hdL : FileDoc wL.file dL)
    {n : NftNames} (hn : DocChain dF n) {pids : UInt32 → Prop} {T : Nat} {old new : List SysEv} (hrun : RestartedRun mac who fwd pids lm T old new)
    (hf : LifeFair fwd.setup n fwd.life (fwdEvents (old ++ new))) (hup : (lifeRun fwd.setup fwd.life (fwdEvents (old ++ new))).core.phase = .running)
    (hch : Chronological (lifeOps fwd.setup fwd.life (fwdEvents (old ++ new))))
    {t P tm : Nat} {env : NftEnv} (hm : .maintain tm env ∈ fwdEvents (old ++ new)) (ht : t ≤ tm + P) (hlate : T + timeout + P < t) (pkt : Packet)
    (hno : ∀ u r res key, DocGrants dL u r res → DocKey dL u key → res.port = pkt.dport →
      (pkt.proto = .tcp → res.tcp = false) ∧ (pkt.proto = .udp → res.udp = false)) (hnc : ¬ ToDocControlPort dF pkt) :
    chainAccepts n (lifeRun fwd.setup fwd.life (fwdEvents (old ++ new))).core.kernel pkt = false := by
  refine Bool.eq_false_iff.2 fun hacc => ?_
  obtain ⟨_, _, _, _, _, _, u, r, res, key, _, _, _, ⟨_, hport, hproto⟩, hg, hk, _⟩ :=
    C114_revoked hoF hF htest hdF htimeout hoL hL hdL hn hrun hf hup hch hm ht hlate pkt hacc hnc
  obtain ⟨h1, h2⟩ := hno u r res key hg hk hport.symm
  rcases hproto with ⟨hp, hr⟩ | ⟨hp, hr⟩
  · rw [h1 hp] at hr; cases hr
  · rw [h2 hp] at hr; cases hr

/-- **C114** (at once). With a restart of letmeinfwd everything that was open is closed at once, whatever there was in the chain: nothing but the control port of its file is accepted. (What happens from
then on is C80.) -/
theorem C114_restart_letmeinfwd {oF : FwdOpts} {wF : FwdWorld} (hoF : IsOrder wF.order) {kF : Kernel} {fwd : FwdProc} (hF : fwdMain oF wF = (kF, .ok fwd))
    {dF : Doc} (hdF : FileDoc wF.file dF) {n : NftNames} (hn : DocChain dF n) (pkt : Packet) (hacc : chainAccepts n kF pkt = true) : ToDocControlPort dF pkt := by
  obtain ⟨cF, vF⟩ := fwdMain_conf hoF hF hdF
  have hl := fwdMain_lifeStart hF
  obtain ⟨_, _, _, _, _, _, hk, hstart, _⟩ := lifeStart_ok hl
  obtain ⟨ids, _, conf, fw, r, _, _, _, _, _, _, _, hp⟩ := fwdMain_ok hF
  have hkk : fwd.life.core.kernel = kF := by rw [hp]
  rw [← hkk] at hacc
  rcases C20_never_unasked fwd.setup.conf n (chainOf_doc (fileDoc_nodup hdF) cF vF hn) _ _ fwd.life.core hstart [] trivial pkt hacc with h | ⟨x, hx, _⟩
  · exact ⟨_, cF.port, h⟩
  · cases hx

/-! ## The hypotheses can be met -/

theorem prefix_before {α : Type} {x : α} : ∀ {l r a c : List α}, l ++ r = a ++ x :: c → x ∉ l → l <+: a
  | [], _, a, _, _, _ => List.nil_prefix
  | y :: l, r, [], c, h, hx => by
    rw [List.nil_append, List.cons_append] at h
    injection h with h _
    exact absurd (by rw [h]; exact List.mem_cons_self) hx
  | y :: l, r, z :: a, c, h, hx => by
    rw [List.cons_append, List.cons_append] at h
    injection h with h1 h2
    subst h1
    exact (List.cons_prefix_cons).2 ⟨rfl, prefix_before h2 fun h => hx (List.mem_cons_of_mem _ h)⟩

/-- The request of `relayRun`. -/
def openReq : FwMessage := FwMessage.newOpen examplePeer .Tcp 22

/-- letmeind's session of `relayRun`, up to the request and after it. -/
def sessionA : List SysEv := (relayRun.take 12).map fun e => .session e.1 e.2
def sessionB : List SysEv := (relayRun.drop 13).map fun e => .session e.1 e.2

/-- letmeind asks, letmeinfwd serves the request at `at`, and maintains its leases a second later. -/
def askedAt (at' : Nat) : List SysEv :=
  sessionA ++ .session 1 ⟨.fwSend openReq, true⟩ :: ([.fwd (.connect lifePeer (some (pidFileText 1234))), .fwd (.message 0 (.msg openReq) at' true),
    .fwd (.maintain (at' + 1 * second) calmEnv)] ++ sessionB)

theorem sessionEvs_map (l : List GEv) : sessionEvs (l.map fun e => .session e.1 e.2) = l := by
  induction l with
  | nil => rfl
  | cons x l ih => simp only [sessionEvs, List.map_cons, List.filterMap_cons] at ih ⊢; rw [ih]

theorem askedAt_sessions (at' : Nat) : sessionEvs (askedAt at') = relayRun := by
  rw [askedAt, sessionEvs_append, sessionA, sessionEvs_map]
  show _ ++ (1, _) :: sessionEvs ([_, _, _] ++ sessionB) = _
  rw [sessionEvs_append, sessionB, sessionEvs_map]
  rfl

theorem askedAt_fwd (at' : Nat) : fwdEvents (askedAt at') = [.connect lifePeer (some (pidFileText 1234)), .message 0 (.msg openReq) at' true,
    .maintain (at' + 1 * second) calmEnv] := by
  simp [askedAt, fwdEvents, sessionA, sessionB, relayRun]

theorem asked_split {front back : List SysEv} {at' : Nat} (hfront : ∀ ev, SysEv.fwd ev ∈ front ++ back → (∃ now env, ev = .maintain now env))
    {a : List SysEv} {cred : Cred} {pf : Option Str} {b : List SysEv} {id : Nat} {m : FwMessage} {now : Nat} {ok : Bool}
    {c : List SysEv} (he : front ++ (askedAt at' ++ back) = a ++ .fwd (.connect (some cred) pf) :: (b ++ .fwd (.message id (.msg m) now ok) :: c)) :
    now = at' ∧ ∃ b', a ++ .fwd (.connect (some cred) pf) :: b = (front ++ sessionA) ++ SysEv.session 1 ⟨.fwSend m, true⟩ :: b' := by
  have hm : m = openReq ∧ now = at' := by
    have hmem : FwdEvent.message id (.msg m) now ok ∈ fwdEvents (front ++ (askedAt at' ++ back)) := by
      rw [he]; simp [fwdEvents]
    rw [fwdEvents_append, fwdEvents_append, askedAt_fwd] at hmem
    simp only [List.mem_append, List.mem_cons, List.not_mem_nil, or_false, reduceCtorEq, false_or, or_assoc] at hmem
    have no : ∀ l, (∀ ev, SysEv.fwd ev ∈ l → SysEv.fwd ev ∈ front ++ back) → FwdEvent.message id (.msg m) now ok ∉ fwdEvents l := by
      intro l hl h
      obtain ⟨x, hx, hxe⟩ := List.mem_filterMap.1 h
      split at hxe
      · cases hxe
        obtain ⟨_, _, h⟩ := hfront _ (hl _ hx)
        cases h
      · cases hxe
    rcases hmem with h | h | h
    · exact absurd h (no front fun ev h => List.mem_append_left _ h)
    · injection h with _ h1 h2
      injection h1 with h1
      exact ⟨h1, h2⟩
    · exact absurd h (no back fun ev h => List.mem_append_right _ h)
  obtain ⟨rfl, rfl⟩ := hm
  refine ⟨rfl, ?_⟩
  have hpre : front ++ sessionA ++ [SysEv.session 1 ⟨.fwSend openReq, true⟩] <+: a := by
    refine prefix_before (x := .fwd (.connect (some cred) pf)) (r := _) (c := _) (by rw [← he, askedAt]; simp only [List.append_assoc, List.cons_append, List.nil_append]; rfl) ?_
    intro h
    simp only [List.mem_append, List.mem_cons, List.not_mem_nil, or_false, reduceCtorEq] at h
    rcases h with h | h
    · obtain ⟨_, _, h⟩ := hfront _ (List.mem_append_left _ h)
      cases h
    · obtain ⟨_, _, h⟩ := List.mem_map.1 h
      cases h
  obtain ⟨b', rfl⟩ := hpre
  exact ⟨b' ++ .fwd (.connect (some cred) pf) :: b, by simp⟩

/-- letmeinfwd has nothing but a round of the maintenance behind it. -/
def quiet : List SysEv := [.fwd (.maintain (1 * second) calmEnv)]

theorem quiet_only {ev : FwdEvent} (h : SysEv.fwd ev ∈ quiet) : ∃ now env, ev = .maintain now env := by
  simp only [quiet, List.mem_cons, List.not_mem_nil, or_false, SysEv.fwd.injEq] at h
  exact ⟨_, _, h⟩

/-- What is to be computed of letmeinfwd. -/
def revokeCheck (evs : List FwdEvent) (times : List Nat) : Kernel × R FwdProc → Bool
  | (_, .ok p) => chainAccepts fwNames (lifeRun p.setup p.life evs).core.kernel ⟨examplePeer, .tcp, 22⟩ &&
      decide ((lifeRun p.setup p.life evs).core.phase = .running) && decide (p.setup.conf.nftTimeout = 600 * second) &&
      decide ((lifeOps p.setup p.life evs).filterMap FwdOp.time = times) && decide (NftNames.get p.setup.conf = .ok fwNames) &&
      decide (p.setup.conf.port.port = 5800)
  | _ => false

theorem revoke_fwd {evs : List FwdEvent} {times : List Nat} (h : revokeCheck evs times (fwdMain e2eFwdOpts e2eFwdWorld) = true) (hs : times.Pairwise (· ≤ ·)) :
    ∃ k p d, fwdMain e2eFwdOpts e2eFwdWorld = (k, .ok p) ∧ FileDoc e2eFwdWorld.file d ∧ DocChain d fwNames ∧
      Given d "NFTABLES" "timeout" (DurationText e2eFwdWorld.f64) 600000000000 (600 * second) ∧
      (lifeRun p.setup p.life evs).core.phase = .running ∧ Chronological (lifeOps p.setup p.life evs) ∧
      chainAccepts fwNames (lifeRun p.setup p.life evs).core.kernel ⟨examplePeer, .tcp, 22⟩ = true ∧ ¬ ToDocControlPort d ⟨examplePeer, .tcp, 22⟩ := by
  generalize hx : fwdMain e2eFwdOpts e2eFwdWorld = x at h
  obtain ⟨k, (p | _ | _)⟩ := x
  · simp only [revokeCheck, Bool.and_eq_true, decide_eq_true_eq] at h
    obtain ⟨⟨⟨⟨⟨h1, h2⟩, h3⟩, h4⟩, h5⟩, h6⟩ := h
    obtain ⟨ids, _, conf, fw, r, _, _, _, hload, _, _, _, hp⟩ := fwdMain_ok hx
    obtain ⟨d, hd⟩ := C54_server_needs_document rfl hload
    obtain ⟨cF, vF⟩ := fwdMain_conf reverse_order hx hd
    refine ⟨k, p, d, rfl, hd, docChain_of cF vF (names_get_iff.1 h5), ?_, h2, ?_, h1, ?_⟩
    · have := cF.nftTimeout
      rw [if_pos vF, h3] at this
      exact this
    · unfold Chronological
      rw [h4]
      exact hs
    · rintro ⟨cp, hcp, he, _⟩
      rw [given_unique (fileDoc_nodup hd) (unique_of_parse parsePort_iff) hcp cF.port, h6] at he
      exact absurd he (by decide)
  · cases h
  · cases h

/-- The hypotheses of `C114_revoked` can be met, with a packet that is accepted: the new letmeind has asked for the port after 700 seconds. -/
example : ∃ k fwd dF lm dL, fwdMain e2eFwdOpts e2eFwdWorld = (k, .ok fwd) ∧ FileDoc e2eFwdWorld.file dF ∧ DocChain dF fwNames ∧
    Given dF "NFTABLES" "timeout" (DurationText e2eFwdWorld.f64) 600000000000 (600 * second) ∧ lmMain e2eLmOpts e2eLmWorld = .ok lm ∧ FileDoc e2eLmWorld.file dL ∧
    RestartedRun toyMac (e2eWho lm) fwd (· = 1234) lm (10 * second) quiet (askedAt (700 * second)) ∧
    LifeFair fwd.setup fwNames fwd.life (fwdEvents (quiet ++ askedAt (700 * second))) ∧
    (lifeRun fwd.setup fwd.life (fwdEvents (quiet ++ askedAt (700 * second)))).core.phase = .running ∧
    Chronological (lifeOps fwd.setup fwd.life (fwdEvents (quiet ++ askedAt (700 * second)))) ∧
    .maintain (700 * second + 1 * second) calmEnv ∈ fwdEvents (quiet ++ askedAt (700 * second)) ∧
    10 * second + 600 * second + 5 * second < 701 * second ∧
    chainAccepts fwNames (lifeRun fwd.setup fwd.life (fwdEvents (quiet ++ askedAt (700 * second)))).core.kernel ⟨examplePeer, .tcp, 22⟩ = true ∧
    ¬ ToDocControlPort dF ⟨examplePeer, .tcp, 22⟩ := by
  have hev : fwdEvents (quiet ++ askedAt (700 * second)) = [.maintain (1 * second) calmEnv, .connect lifePeer (some (pidFileText 1234)),
      .message 0 (.msg openReq) (700 * second) true, .maintain (700 * second + 1 * second) calmEnv] := by
    rw [fwdEvents_append, askedAt_fwd]; rfl
  obtain ⟨k, fwd, dF, h1, h2, h3, h4, h5, h6, h7, h8⟩ := revoke_fwd (evs := [.maintain (1 * second) calmEnv, .connect lifePeer (some (pidFileText 1234)),
      .message 0 (.msg openReq) (700 * second) true, .maintain (700 * second + 1 * second) calmEnv]) (times := [1 * second, 700 * second, 701 * second])
    (by decide +kernel) (by decide)
  obtain ⟨q, hq, htr, _, _, hport⟩ := e2e_lm
  refine ⟨k, fwd, dF, q, dF, h1, h2, h3, h4, hq, h2, ⟨?_, ?_, ?_, ?_⟩, ?_, by rw [hev]; exact h5, by rw [hev]; exact h6, by rw [hev]; simp, by decide,
    by rw [hev]; exact h7, h8⟩
  · rw [sessionEvs_append, askedAt_sessions]
    intro sid
    match sid with
    | 0 => exact relayRun_run examplePeer 0
    | 1 =>
      refine ⟨(play (session toyMac q.conf examplePeer) exampleScript).2, ?_⟩
      show (session toyMac q.conf examplePeer).Trace (proj 1 relayRun) _
      rw [htr]
      exact play_trace _ _
    | n + 2 => exact ⟨none, rfl, .inl rfl⟩
  · intro sid e conf peer _ h
    match sid with
    | 0 => simp [e2eWho] at h
    | 1 => simp only [e2eWho, Party.server.injEq] at h; exact h.1.symm
    | n + 2 => simp [e2eWho] at h
  · intro cred text h
    have h : FwdEvent.connect cred (some text) ∈ fwdEvents (quiet ++ askedAt (700 * second)) := List.mem_filterMap.2 ⟨_, h, rfl⟩
    rw [hev] at h
    simp only [List.mem_cons, reduceCtorEq, List.not_mem_nil, or_false, false_or, FwdEvent.connect.injEq, Option.some.injEq] at h
    exact ⟨1234, rfl, h.2⟩
  · intro a cred pf b m now ok c pid he _ _
    obtain ⟨_, b', h⟩ := asked_split (front := quiet) (back := []) (fun ev h => quiet_only (by simpa using h)) (by rw [List.append_nil]; exact he)
    exact ⟨1, q.conf, examplePeer, true, _, b', rfl, h, fun _ => List.prefix_append _ _⟩
  · rw [hev]
    exact ⟨⟨fun _ => ⟨rfl, Nat.le_refl _⟩, fun _ => ⟨rfl, Nat.le_refl _⟩⟩, trivial, trivial, ⟨fun _ => ⟨rfl, Nat.le_refl _⟩, fun _ => ⟨rfl, Nat.le_refl _⟩⟩, trivial⟩

/-- After the restart nothing but a round of the maintenance. -/
def quietAfter : List SysEv := [.fwd (.maintain (600 * second) calmEnv)]

theorem lm_load_of {o : LmOpts} {w : LmWorld} {f : FileContent} {q : LmProc} (hf : w.f64 = f64Secs) (ho : w.order = id)
    (h : lmMain o { w with file := f } = .ok q) : (Config.new .Server).load f64Secs id o.config f = (.ok (), q.conf) := by
  have h := lmMain_load h
  dsimp only at h
  rw [hf, ho] at h
  exact h

theorem fresh_lm_starts : ∃ lm, lmMain e2eLmOpts { freshLmWorld with file := .text (textOf shippedServer) } = .ok lm ∧
    (Config.new .Server).load f64Secs id e2eLmOpts.config (.text (textOf shippedServer)) = (.ok (), lm.conf) := by
  have h := (congrArg freshAnswer (lmMain_file (o := e2eLmOpts) (w := freshLmWorld) (shipped_core _ _))).trans fresh_lm
  generalize hx : lmMain e2eLmOpts { freshLmWorld with file := .text (textOf shippedServer) } = x at h
  obtain (q | _ | _) := x
  · exact ⟨q, rfl, lm_load_of rfl rfl hx⟩
  · cases h
  · cases h

/-- The second start of letmeinfwd, after it was killed while port 22 was open. -/
def restartCheck : Kernel × R FwdProc → Bool
  | (_, .ok p) =>
    let k := (lifeRun p.setup p.life [.connect lifePeer (some (pidFileText 1234)), .message 0 (.msg openReq) (10 * second) true]).core.kernel
    let again := fwdMain e2eFwdOpts { e2eFwdWorld with kernel := k }
    chainAccepts fwNames k ⟨examplePeer, .tcp, 22⟩ && (match again.2 with | .ok _ => true | _ => false) &&
      chainAccepts fwNames again.1 ⟨examplePeer, .tcp, 5800⟩ && !chainAccepts fwNames again.1 ⟨examplePeer, .tcp, 22⟩
  | _ => false

/-- The hypotheses of `C114_restart_letmeinfwd` can be met, with a chain in which more was open. -/
example : restartCheck (fwdMain e2eFwdOpts e2eFwdWorld) = true := by decide +kernel

/-- **C114** (not at once). The waiting time is needed: letmeind has been restarted with a file without any key; a port that an earlier letmeind has asked for is still open. -/
theorem C114_not_at_once : ∃ (k : Kernel) (fwd : FwdProc) (dF : Doc) (q lm : LmProc) (dL : Doc),
    fwdMain e2eFwdOpts e2eFwdWorld = (k, .ok fwd) ∧ FileDoc e2eFwdWorld.file dF ∧ DocChain dF fwNames ∧
    lmMain e2eLmOpts e2eLmWorld = .ok q ∧
    lmMain e2eLmOpts { freshLmWorld with file := .text (textOf shippedServer) } = .ok lm ∧ FileDoc (.text (textOf shippedServer)) dL ∧
    (∀ u key, ¬ DocKey dL u key) ∧
    RestartedRun toyMac (e2eWho q) fwd (· = 1234) lm (10 * second) (askedAt (10 * second)) quietAfter ∧
    LifeFair fwd.setup fwNames fwd.life (fwdEvents (askedAt (10 * second) ++ quietAfter)) ∧
    Chronological (lifeOps fwd.setup fwd.life (fwdEvents (askedAt (10 * second) ++ quietAfter))) ∧
    (lifeRun fwd.setup fwd.life (fwdEvents (askedAt (10 * second) ++ quietAfter))).core.phase = .running ∧
    chainAccepts fwNames (lifeRun fwd.setup fwd.life (fwdEvents (askedAt (10 * second) ++ quietAfter))).core.kernel ⟨examplePeer, .tcp, 22⟩ = true ∧
    ¬ ToDocControlPort dF ⟨examplePeer, .tcp, 22⟩ := by
  have hev : fwdEvents (askedAt (10 * second) ++ quietAfter) = [.connect lifePeer (some (pidFileText 1234)),
      .message 0 (.msg openReq) (10 * second) true, .maintain (10 * second + 1 * second) calmEnv, .maintain (600 * second) calmEnv] := by
    rw [fwdEvents_append, askedAt_fwd]; rfl
  obtain ⟨k, fwd, dF, h1, h2, h3, h4, h5, h6, h7, h8⟩ := revoke_fwd (evs := [.connect lifePeer (some (pidFileText 1234)),
      .message 0 (.msg openReq) (10 * second) true, .maintain (10 * second + 1 * second) calmEnv, .maintain (600 * second) calmEnv])
    (times := [10 * second, 11 * second, 600 * second]) (by decide +kernel) (by decide)
  obtain ⟨q, hq, htr, _, _, hport⟩ := e2e_lm
  obtain ⟨lm, hlm, hlc⟩ := fresh_lm_starts
  obtain ⟨dL, hdL⟩ := C54_server_needs_document rfl hlc
  obtain ⟨cL, _⟩ := C54_loaded_is_described id_order hdL hlc
  refine ⟨k, fwd, dF, q, lm, dL, h1, h2, h3, hq, hlm, hdL, ?_, ⟨?_, ?_, ?_, ?_⟩, ?_, by rw [hev]; exact h6, by rw [hev]; exact h5,
    by rw [hev]; exact h7, h8⟩
  · intro u key h
    have h := (cL.keys.keys u key).2 h
    rw [(fresh_server id_order hlc).keys u] at h
    cases h
  · rw [sessionEvs_append, askedAt_sessions, show sessionEvs quietAfter = [] from rfl, List.append_nil]
    intro sid
    match sid with
    | 0 => exact relayRun_run examplePeer 0
    | 1 =>
      refine ⟨(play (session toyMac q.conf examplePeer) exampleScript).2, ?_⟩
      show (session toyMac q.conf examplePeer).Trace (proj 1 relayRun) _
      rw [htr]
      exact play_trace _ _
    | n + 2 => exact ⟨none, rfl, .inl rfl⟩
  · intro sid e conf peer h _
    simp [quietAfter] at h
  · intro cred text h
    have h : FwdEvent.connect cred (some text) ∈ fwdEvents (askedAt (10 * second) ++ quietAfter) := List.mem_filterMap.2 ⟨_, h, rfl⟩
    rw [hev] at h
    simp only [List.mem_cons, reduceCtorEq, List.not_mem_nil, or_false, false_or, FwdEvent.connect.injEq, Option.some.injEq] at h
    exact ⟨1234, rfl, h.2⟩
  · intro a cred pf b m now ok c pid he _ _
    obtain ⟨hnow, b', h⟩ := asked_split (front := []) (back := quietAfter) (fun ev h => by
      simp only [quietAfter, List.nil_append, List.mem_cons, List.not_mem_nil, or_false, SysEv.fwd.injEq] at h
      exact ⟨_, _, h⟩) he
    exact ⟨1, q.conf, examplePeer, true, _, b', rfl, h, fun hl => absurd hl (by rw [hnow]; exact Nat.lt_irrefl _)⟩
  · rw [hev]
    exact ⟨trivial, trivial, ⟨fun _ => ⟨rfl, Nat.le_refl _⟩, fun _ => ⟨rfl, Nat.le_refl _⟩⟩, ⟨fun _ => ⟨rfl, Nat.le_refl _⟩, fun _ => ⟨rfl, Nat.le_refl _⟩⟩, trivial⟩

end Letmein.Props
