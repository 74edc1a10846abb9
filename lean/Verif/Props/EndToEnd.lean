import Verif.Props.System
import Verif.Props.Main
import Verif.Props.Whole
import Verif.Props.Startup

/-!
# Property C80: from the configuration files to the packets
-/

namespace Letmein.Spec

/-- The document has the key for the user. -/
def DocKey (d : Doc) (u : UserId) (k : Key) : Prop := ∃ n v, Setting d "KEYS".toList n v ∧ IdText n u.raw ∧ KeyText v k

/-- The document has the resource. -/
def DocResource (d : Doc) (r : ResourceId) (res : Resource) : Prop :=
  ∃ n v, Setting d "RESOURCES".toList n v ∧ IdText n r.raw ∧ ResourceText v res

/-- The document's control port, or the default. -/
def DocControlPort (d : Doc) (cp : ControlPort) : Prop := Given d "GENERAL" "port" PortText { port := 5800, tcp := true, udp := false } cp

/-- The user may use the resource according to the document: it names them, or nobody; and the resource is not the control port. -/
structure DocGrants (d : Doc) (u : UserId) (r : ResourceId) (res : Resource) : Prop where
  resource : DocResource d r res
  users : res.users = [] ∨ u ∈ res.users
  notControl : ∀ cp, DocControlPort d cp → res.port ≠ cp.port

/-- The chain that the document names. -/
structure DocChain (d : Doc) (n : NftNames) : Prop where
  family : ∃ v, Setting d "NFTABLES".toList "family".toList v ∧ Trimmed v (familyName n.family)
  table : ∃ v, Setting d "NFTABLES".toList "table".toList v ∧ Trimmed v n.table
  chain : ∃ v, Setting d "NFTABLES".toList "chain-input".toList v ∧ Trimmed v n.chainInput
  tableNonempty : n.table ≠ []
  chainNonempty : n.chainInput ≠ []

/-- The packet goes to the control port of the document. -/
def ToDocControlPort (d : Doc) (pkt : Packet) : Prop :=
  ∃ cp, DocControlPort d cp ∧ pkt.dport = cp.port ∧ ((pkt.proto = .tcp ∧ cp.tcp = true) ∨ (pkt.proto = .udp ∧ cp.udp = true))

end Letmein.Spec

namespace Letmein.Props

open Letmein Prog Spec

theorem fileDoc_nodup {file : FileContent} {d : Doc} (h : FileDoc file d) : (d.map (·.1)).Nodup := by
  obtain ⟨ini, _, h2⟩ := newFromFile_doc h
  exact h2.nodup

theorem docChain_of {f64 : F64Secs} {d : Doc} {c : Config} (h : ConfOf f64 d c) (hv : c.variant = .Server) {n : NftNames} (hn : ChainOf c n) :
    DocChain d n := by
  have h1 := h.nftFamily; have h2 := h.nftTable; have h3 := h.nftChainInput
  rw [if_pos hv] at h1 h2 h3
  refine ⟨?_, ?_, ?_, hn.tableNonempty, hn.chainNonempty⟩
  · rcases h1 with ⟨v, a, b⟩ | ⟨_, b⟩
    · exact ⟨v, a, hn.family ▸ b.1⟩
    · have := hn.family
      rw [b] at this
      cases hf : n.family <;> rw [hf] at this <;> simp [familyName] at this
  · rcases h2 with ⟨v, a, b⟩ | ⟨_, b⟩
    · exact ⟨v, a, hn.table ▸ b⟩
    · exact absurd (hn.table.symm.trans b) hn.tableNonempty
  · rcases h3 with ⟨v, a, b⟩ | ⟨_, b⟩
    · exact ⟨v, a, hn.chain ▸ b⟩
    · exact absurd (hn.chain.symm.trans b) hn.chainNonempty

theorem chainOf_doc {f64 : F64Secs} {d : Doc} (hd : (d.map (·.1)).Nodup) {c : Config} (h : ConfOf f64 d c) (hv : c.variant = .Server) {n : NftNames}
    (hn : DocChain d n) : ChainOf c n := by
  have h1 := h.nftFamily; have h2 := h.nftTable; have h3 := h.nftChainInput
  rw [if_pos hv] at h1 h2 h3
  have t : ∀ s x y, Trimmed s x → Trimmed s y → x = y := by
    intro s x y hx hy; rw [trimmed_iff] at hx hy; rw [← hx, ← hy]
  have key : ∀ {o : String} {P : Str → Str → Prop} {dflt x y : Str}, (∀ s x, P s x → Trimmed s x) → Given d "NFTABLES" o P dflt x →
      (∃ v, Setting d "NFTABLES".toList o.toList v ∧ Trimmed v y) → x = y := by
    intro o P dflt x y hP hg ⟨v, hv, hy⟩
    rcases hg with ⟨v', a, b⟩ | ⟨a, _⟩
    · rw [setting_unique hd a hv] at b
      exact t _ _ _ (hP _ _ b) hy
    · exact absurd ⟨v, hv⟩ a
  exact ⟨key (fun _ _ h => h.1) h1 hn.family, key (fun _ _ h => h) h2 hn.table, key (fun _ _ h => h) h3 hn.chain, hn.tableNonempty, hn.chainNonempty⟩

theorem docGrants_iff {f64 : F64Secs} {d : Doc} (hd : (d.map (·.1)).Nodup) {c : Config} (h : ConfOf f64 d c) {u : UserId} {r : ResourceId}
    {res : Resource} : Granted c u r res ↔ DocGrants d u r res := by
  constructor
  · intro g
    refine ⟨(h.resources.resources _ _).1 g.configured, g.allowed, fun cp hcp => ?_⟩
    rw [given_unique hd (unique_of_parse parsePort_iff) hcp h.port]
    exact g.notControl
  · intro g
    exact ⟨(h.resources.resources _ _).2 g.resource, g.users, g.notControl _ h.port⟩

/-- letmeinfwd's configuration. -/
theorem fwdMain_conf {o : FwdOpts} {w : FwdWorld} (ho : IsOrder w.order) {k : Kernel} {p : FwdProc} (h : fwdMain o w = (k, .ok p)) {d : Doc}
    (hd : FileDoc w.file d) : ConfOf w.f64 d p.setup.conf ∧ p.setup.conf.variant = .Server := by
  obtain ⟨ids, _, conf, fw, r, _, _, _, hload, _, _, _, rfl⟩ := fwdMain_ok h
  have := C54_loaded_is_described ho hd hload
  exact ⟨this.1, this.2.1⟩

/-- letmeind's configuration. -/
theorem lmMain_conf {o : LmOpts} {w : LmWorld} (ho : IsOrder w.order) {p : LmProc} (h : lmMain o w = .ok p) {d : Doc} (hd : FileDoc w.file d) :
    ConfOf w.f64 d p.conf ∧ p.conf.variant = .Server ∧ fsRead p.fs lmPidPath = some (pidFileText w.pid) := by
  unfold lmMain at h
  simp only [R.bind_eq_ok] at h
  obtain ⟨_, _, _, hload, l, hl, _, hpid, f, hf, st, hst, h⟩ := h
  injection h with h
  subst h
  have hload' : (Config.new .Server).load w.f64 w.order o.config w.file = (.ok (), ((Config.new .Server).load w.f64 w.order o.config w.file).2) :=
    Prod.ext hload rfl
  have := C54_loaded_is_described ho hd hload'
  exact ⟨this.1, this.2.1, makePidfile_content _ _ _ _ _ hpid⟩

/-- A history of the system after both servers have been started: the sessions are those of the letmeind that was started; letmeind's pid file stays as
letmeind has written it; what arrives at letmeinfwd from letmeind's process was sent by one of letmeind's sessions. -/
structure StartedRun (mac : MacFn) (who : Nat → Party) (fwd : FwdProc) (lm : LmProc) (lmPid : UInt32) (evs : List SysEv) : Prop where
  sessions : GlobalRun mac who (sessionEvs evs)
  server : ∀ sid conf peer, who sid = .server conf peer → conf = lm.conf
  pidFile : ∀ cred text, SysEv.fwd (.connect cred (some text)) ∈ evs → fsRead lm.fs lmPidPath = some text
  unixSocket : ∀ a cred pf b m now ok c,
    evs = a ++ .fwd (.connect (some cred) pf) ::
      (b ++ .fwd (.message (lifeRun fwd.setup fwd.life (fwdEvents a)).nextId (.msg m) now ok) :: c) →
    cred.pid = some (lmPid.toNat : Int) →
    ∃ sid conf peer sent, who sid = .server conf peer ∧ SysEv.session sid ⟨.fwSend m, sent⟩ ∈ a ++ .fwd (.connect (some cred) pf) :: b

/-- **C80** (what gets in). Start letmeinfwd and letmeind from their command lines and configuration files. Whatever the network, the clients and other
processes do afterwards, a packet accepted by the chain that letmeinfwd's file names goes to the control port of this file; or its
source address, destination port and protocol are those of a session of letmeind and of a resource in letmeind's file that this file grants to a user whose key it has,
and the session's challenge was answered by a holder of exactly this key (or the MAC was broken). -/
theorem C80_only_described {mac : MacFn} {who : Nat → Party} {oF : FwdOpts} {wF : FwdWorld} (hoF : IsOrder wF.order) {kF : Kernel} {fwd : FwdProc}
    (hF : fwdMain oF wF = (kF, .ok fwd)) (htest : oF.testMode = false) {dF : Doc} (hdF : FileDoc wF.file dF)
    {oL : LmOpts} {wL : LmWorld} (hoL : IsOrder wL.order) {lm : LmProc} (hL : lmMain oL wL = .ok lm) {dL : Doc} (hdL : FileDoc wL.file dL)
    {n : NftNames} (hn : DocChain dF n) {evs : List SysEv} (hrun : StartedRun mac who fwd lm wL.pid evs)
    (hf : LifeFair fwd.setup n fwd.life (fwdEvents evs)) (pkt : Packet)
    (hacc : chainAccepts n (lifeRun fwd.setup fwd.life (fwdEvents evs)).core.kernel pkt = true) :
    ToDocControlPort dF pkt ∨
      ∃ a sid e b m peer u r res key nonce, evs = a ++ .session sid e :: b ∧ fwReq e = some m ∧ EntersResource peer res pkt ∧
        DocGrants dL u r res ∧ DocKey dL u key ∧ (sid, ⟨.rand32, some nonce⟩) ∈ sessionEvs a ∧
        ((∃ g1 cid ev g2, sessionEvs a = g1 ++ (cid, ev) :: g2 ∧ Answers mac who g1 cid ev key u r nonce) ∨
          Forgery mac who (sessionEvs a) key ∨ CollisionInRun mac who (sessionEvs a) key) := by
  obtain ⟨cF, vF⟩ := fwdMain_conf hoF hF hdF
  obtain ⟨cL, vL, pidL⟩ := lmMain_conf hoL hL hdL
  have hlife := fwdMain_lifeStart hF
  rw [htest] at hlife
  have hsys : SystemRun mac who fwd.setup fwd.life wL.pid evs := by
    refine ⟨hrun.sessions, fun cred text h => ?_, hrun.unixSocket⟩
    have := hrun.pidFile cred text h
    rw [pidL] at this
    injection this with this
    exact this.symm
  rcases C63_only_key_holders_get_in (chainOf_doc (fileDoc_nodup hdF) cF vF hn) hlife evs hsys hf pkt hacc with h | ⟨a, sid, e, b, m, peer, res, h1, h2, h3, ⟨h4⟩⟩
  · exact .inl ⟨_, cF.port, h⟩
  · obtain ⟨conf, u, r, key, nonce, hw, hk, hg, hnon, hans⟩ := h4
    have := hrun.server _ _ _ hw
    subst this
    exact .inr ⟨a, sid, e, b, m, peer, u, r, res, key, nonce, h1, h2, h3, (docGrants_iff (fileDoc_nodup hdL) cL).1 hg, (cL.keys.keys _ _).1 hk,
      hnon, hans⟩

/-- **C80** (one file for both). letmeind and letmeinfwd read the same file, each iterating its maps in whatever order. Then letmeinfwd never refuses what letmeind
grants because of the port: the port is one of its resources and not its control port. -/
theorem C80_one_file {oF : FwdOpts} {wF : FwdWorld} (hoF : IsOrder wF.order) {kF : Kernel} {fwd : FwdProc} (hF : fwdMain oF wF = (kF, .ok fwd))
    {oL : LmOpts} {wL : LmWorld} (hoL : IsOrder wL.order) {lm : LmProc} (hL : lmMain oL wL = .ok lm) (hfile : wF.file = wL.file) {d : Doc}
    (hd : FileDoc wL.file d) {u : UserId} {r : ResourceId} {res : Resource} (hg : Granted lm.conf u r res) :
    (∃ e ∈ fwd.setup.conf.resources, e.2.port = res.port) ∧ res.port ≠ fwd.setup.conf.port.port := by
  obtain ⟨cF, _⟩ := fwdMain_conf hoF hF (hfile ▸ hd)
  obtain ⟨cL, _, _⟩ := lmMain_conf hoL hL hd
  have hg := (docGrants_iff (fileDoc_nodup hd) cL).1 hg
  exact ⟨⟨(r, res), (assocGet_eq_some_iff cF.resourcesNodup).1 ((cF.resources.resources _ _).2 hg.resource), rfl⟩, hg.notControl _ cF.port⟩

/-- The command line selects the family: by its option, or without options whatever the host has. -/
def Selects (v4 v6 : Bool) (m : ResMode) : Prop :=
  (v4 = true ∧ v6 = false ∧ m = .Ipv4) ∨ (v4 = false ∧ v6 = true ∧ m = .Ipv6) ∨ (v4 = false ∧ v6 = false)

/-- The client's filter can be built everywhere, so it is in force if the kernel takes it. -/
theorem client_filter {platform : Option SecPlatform} {opt : Option Seccomp} {conf : Config} :
    installFor letmeinAllow platform opt conf true ≠ .err := by
  have hc : ∀ p d, ∃ f, SecFilter.compile p letmeinAllow d = .ok f := by
    have : ∀ p d, (match SecFilter.compile p letmeinAllow d with | .ok _ => true | _ => false) = true := by
      rintro ⟨a, b⟩ d
      cases a <;> cases b <;> cases d <;> decide +kernel
    intro p d
    have := this p d
    split at this
    · exact ⟨_, by assumption⟩
    · cases this
  have hi : ∀ d, installSeccomp.install letmeinAllow platform true d ≠ .err := by
    intro d
    unfold installSeccomp.install
    cases platform with
    | none => simp
    | some p =>
      obtain ⟨f, hf⟩ := hc p d
      simp only [hf, R.bind_ok, rensure]
      intro h; cases h
  unfold installFor installSeccomp
  cases opt.getD conf.seccomp with
  | Off => simp
  | Log => exact hi .Log
  | Kill => exact hi .Kill

/-- The client's command line ends in success if the exchange with the server does. -/
theorem command_succeeds {o : ClientOpts} {w : ClientWorld} (ho : IsOrder w.order) (hv : o.version = false) {host : Str} {port : UInt16}
    {user : Option UserId} {sp : Option UInt16} {tcp udp v4 v6 : Bool} (hc : o.command = some (.knock host port user sp tcp udp v4 v6))
    {d : Doc} (hd : FileDoc w.file d) {conf : Config} (hl : (Config.new .Client).load w.f64 w.order o.config w.file = (.ok (), conf))
    (hi : installFor letmeinAllow w.platform o.seccomp conf w.installOk ≠ .err) {u : UserId}
    (hu : user = some u ∨ (user = none ∧ conf.defaultUser = u)) {key : Key} (hk : conf.key u = some key) {r : ResourceId}
    {res : Resource} (hr : conf.resource r = some res) (hp : res.port = port) (hus : res.users = [] ∨ u ∈ res.users)
    {m : ResMode} (hm : Selects v4 v6 m) {a : IpAddr} (hres : (resolve w.parseIp w.dns host ⟨m, o.dns, o.dnsCrypt⟩).2 = .ok a)
    (hnp : ∀ act, w.exchange u r key act ≠ .panic)
    (hx : ∀ act, Connection ⟨host, AddrMode.ofFlags v4 v6, sp, tcp, udp⟩ conf a act → w.opens act = true ∧ w.exchange u r key act = .ok ()) :
    (clientMain o w).2 = .ok () := by
  have hcont : res.containsUser u = true := by
    unfold Resource.containsUser
    rcases hus with h | h <;> simp [h]
  have hid : conf.resourceIdByPort port (some u) = some r :=
    (C36_lookup_unambiguous ho hd hl (List.Perm.refl _) port (some u) r).2 ⟨res, hr, hp, fun u' e => by injection e with e; subst e; exact hcont⟩
  have hres' := hres
  obtain ⟨a1, a2, _, a4, a5, _⟩ := C45_families_and_verdict w.parseIp w.dns w.opens (exchange := w.exchange) (C38_loaded_port_enabled ho hd hl) host v4 v6
    sp tcp udp port user o.dns o.dnsCrypt hu hk hid hnp
  have hfam : InFamily m a := C44_family hres
  have hok : (∃ act ∈ (runKnock w.parseIp w.dns w.opens w.exchange conf ⟨host, AddrMode.ofFlags v4 v6, sp, tcp, udp⟩ port user o.dns o.dnsCrypt).1,
        Connection ⟨host, AddrMode.ofFlags v4 v6, sp, tcp, udp⟩ conf a act) →
      KnockedOk ⟨host, AddrMode.ofFlags v4 v6, sp, tcp, udp⟩ conf w.opens (w.exchange u r key)
        (runKnock w.parseIp w.dns w.opens w.exchange conf ⟨host, AddrMode.ofFlags v4 v6, sp, tcp, udp⟩ port user o.dns o.dnsCrypt).1 m := by
    rintro ⟨act, h1, h2⟩
    exact ⟨act, h1, a, hfam, h2, (hx act h2).1, (hx act h2).2⟩
  have hout : (runKnock w.parseIp w.dns w.opens w.exchange conf ⟨host, AddrMode.ofFlags v4 v6, sp, tcp, udp⟩ port user o.dns o.dnsCrypt).2 = .ok () := by
    rcases hm with ⟨h4, h6, rfl⟩ | ⟨h4, h6, rfl⟩ | ⟨h4, h6⟩
    · obtain ⟨_, t, e⟩ := a1 h4 h6
      exact e.2 (hok (t a hres))
    · obtain ⟨_, t, e⟩ := a2 h4 h6
      exact e.2 (hok (t a hres))
    · cases hpi : w.parseIp host with
      | none =>
        obtain ⟨t6, t4, e⟩ := a4 h4 h6 hpi
        cases m with
        | Ipv6 => exact e.2 (.inl (hok (t6 a hres)))
        | Ipv4 => exact e.2 (.inr (hok (t4 a hres)))
      | some a' =>
        have ha : a' = a := by
          obtain ⟨_, l1, l2⟩ := C44_literal hpi w.dns ⟨m, o.dns, o.dnsCrypt⟩
          by_cases hf : InFamily m a'
          · have := l1 hf
            rw [hres] at this
            injection this with this
            exact this.symm
          · have := l2 hf
            rw [hres] at this
            cases this
        subst ha
        obtain ⟨t, e⟩ := (a5 a' hpi).2 h4 h6 m hfam
        exact e.2 (hok (t a' hres))
  unfold clientMain
  rw [hv]
  simp only [Bool.false_eq_true, if_false]
  unfold clientAsyncMain
  simp only [hl]
  cases hins : installFor letmeinAllow w.platform o.seccomp conf w.installOk with
  | err => exact absurd hins hi
  | panic => exact (installFor_not_panic (.inl rfl) _ _ _ _ hins).elim
  | ok f =>
    simp only
    unfold clientCommand
    rw [hc]
    exact hout

/-- **C80** (the command opens the port). letmeind and letmeinfwd have been started from the same file, the client from its own one; both files have the same key for the
user and a resource with the same number, which the client's file has under the wanted port and the servers' file grants to the user. The host has an
address in a selected family, the connection to it can be opened, and the exchange with the servers over it runs to its end without interference,
while letmeinfwd also serves others. Then the command `letmein knock` ends in success, and the port of the resource is open for the client's address. -/
theorem C80_command_opens {mac : MacFn} {oF : FwdOpts} {wF : FwdWorld} (hoF : IsOrder wF.order) {kF : Kernel} {fwd : FwdProc}
    (hF : fwdMain oF wF = (kF, .ok fwd)) {oL : LmOpts} {wL : LmWorld} (hoL : IsOrder wL.order) {lm : LmProc} (hL : lmMain oL wL = .ok lm)
    (hfile : wF.file = wL.file) {dS : Doc} (hdS : FileDoc wL.file dS)
    {o : ClientOpts} {w : ClientWorld} (ho : IsOrder w.order) (hinst : w.installOk = true) (hv : o.version = false) {host : Str} {port : UInt16}
    {user : Option UserId} {sp : Option UInt16} {tcp udp v4 v6 : Bool} (hcmd : o.command = some (.knock host port user sp tcp udp v4 v6))
    {dC : Doc} (hdC : FileDoc w.file dC) {confC : Config} (hl : (Config.new .Client).load w.f64 w.order o.config w.file = (.ok (), confC))
    -- what the files say
    {u : UserId} (hu : user = some u ∨ (user = none ∧ Given dC "CLIENT" "default-user" (fun s (u : UserId) => IdText s u.raw) ⟨0⟩ u))
    {key : Key} (hkC : DocKey dC u key) (hkS : DocKey dS u key) {r : ResourceId} {resC res : Resource} (hrC : DocResource dC r resC)
    (hpC : resC.port = port) (huC : resC.users = [] ∨ u ∈ resC.users) (hg : DocGrants dS u r res) {n : NftNames} (hn : DocChain dS n)
    -- the client's address, as the server sees it
    {peer : IpAddr} (hfam : matchable n.family peer = true)
    (hpeer : peer ≠ .v4 (Arr.replicate 4 0) ∧ peer ≠ .v4 (Arr.replicate 4 0xFF) ∧ peer ≠ .v6 (Arr.replicate 16 0) ∧ peer ≠ .v6 (Arr.replicate 16 0xFF))
    -- what letmeinfwd does before and during the knock
    {before : List FwdOp} (hb : (fwdRun fwd.setup.conf fwd.life.core before).2.phase ≠ .stopped) {evs : List WEv} {W : Whole}
    (hrun : WSteps fwd.setup.conf (Whole.init mac lm.conf peer u r key (fwdRun fwd.setup.conf fwd.life.core before).2) evs W)
    (hfair : Fair fwd.setup.conf n fwd.life.core (before ++ wholeOps evs)) (hterm : ∀ ok, FwdOp.terminate ok ∉ wholeOps evs)
    (hend : ¬ ∃ e W', WEv.own e = true ∧ WStep fwd.setup.conf W e W')
    -- the connection, and the exchange over it
    {m : ResMode} (hm : Selects v4 v6 m) {a : IpAddr} (hres : (resolve w.parseIp w.dns host ⟨m, o.dns, o.dnsCrypt⟩).2 = .ok a)
    (hopen : ∀ act, Connection ⟨host, AddrMode.ofFlags v4 v6, sp, tcp, udp⟩ confC a act →
      w.opens act = true ∧ W.client = .ret (w.exchange u r key act))
    (hnp : ∀ act, w.exchange u r key act ≠ .panic) :
    (clientMain o w).2 = .ok () ∧ (Within fwd.setup.conf.nftTimeout (wholeOps evs) → OpenFor n W.fwd.kernel peer res) := by
  have hndS := fileDoc_nodup hdS
  obtain ⟨cF, vF⟩ := fwdMain_conf hoF hF (hfile ▸ hdS)
  obtain ⟨cL, vL, _⟩ := lmMain_conf hoL hL hdS
  obtain ⟨cC, vC, _⟩ := C54_loaded_is_described ho hdC hl
  have hgL := (docGrants_iff hndS cL).2 hg
  obtain ⟨e1, e2⟩ := C80_one_file hoF hF hoL hL hfile hdS hgL
  have hpr : res.tcp = true ∨ res.udp = true := by
    obtain ⟨_, v, _, _, items, _, _, _, _, t1, t2⟩ := hg.resource
    by_cases hx : HasWord items "udp"
    · exact .inr (t2.2 hx)
    · exact .inl (t1.2 (.inr hx))
  obtain ⟨_, _, _, _, _, _, _, hstart, _⟩ := lifeStart_ok (fwdMain_lifeStart hF)
  obtain ⟨p1, p2, p3, p4⟩ := hpeer
  obtain ⟨_, h | ⟨_, hcl, _, hopened⟩⟩ := C79_honest_knock_opens mac lm.conf fwd.setup.conf peer u r key res ((cL.keys.keys _ _).2 hkS) hgL hpr n
    (chainOf_doc hndS cF vF hn) ⟨e1, e2, hfam, p1, p2, p3, p4⟩ _ _ _ hstart before hb evs W hrun hfair hterm
  · exact absurd h hend
  · refine ⟨?_, hopened⟩
    have hdu : user = some u ∨ (user = none ∧ confC.defaultUser = u) := by
      rcases hu with h | ⟨h, hgv⟩
      · exact .inl h
      · refine .inr ⟨h, ?_⟩
        have := cC.defaultUser
        rw [if_pos (show confC.variant = .Client from vC)] at this
        exact given_unique (fileDoc_nodup hdC) (fun s x y hx hy => by
          have := idText_unique hx hy
          cases x; cases y; simp at this; rw [this]) this hgv
    refine command_succeeds ho hv hcmd hdC hl (by rw [hinst]; exact client_filter) hdu ((cC.keys.keys _ _).2 hkC) ((cC.resources.resources _ _).2 hrC)
      hpC huC hm hres hnp fun act hact => ?_
    obtain ⟨q1, q2⟩ := hopen act hact
    refine ⟨q1, ?_⟩
    rw [hcl] at q2
    injection q2 with q2
    exact q2.symm

/-! ### A concrete case -/

/-- A file for both servers. -/
def e2eText : Str :=
  ("[GENERAL]\nport = 5800 / tcp\n[NFTABLES]\nfamily = inet\ntable = filter\nchain-input = LETMEIN-INPUT\n[KEYS]\n" ++
  "A423DDA7 = 0707070707070707070707070707070707070707070707070707070707070707\n[RESOURCES]\nBC5D8077 = port: 22\n00000001 = port: 443 / users: 00000005\n").toList

/-- A file for the client. -/
def e2eClientText : Str :=
  ("[KEYS]\nA423DDA7 = 0707070707070707070707070707070707070707070707070707070707070707\n[RESOURCES]\nBC5D8077 = port: 22 / users: A423DDA7\n" ++
  "[CLIENT]\ndefault-user = A423DDA7\n").toList

/-- letmeinfwd's start; it iterates its maps in another order. -/
def e2eFwdWorld : FwdWorld := { fwdWorld with file := .text e2eText, order := List.reverse }
/-- letmeind's start. -/
def e2eLmWorld : LmWorld := { lmWorld with file := .text e2eText, pid := 1234 }
/-- letmeinfwd's command line. -/
def e2eFwdOpts : FwdOpts := { config := "letmeind.conf".toList, limit := 8, noSystemd := true, seccomp := none, testMode := false }
/-- letmeind's command line. -/
def e2eLmOpts : LmOpts := { config := "letmeind.conf".toList, limit := 8, noSystemd := false, seccomp := none }
/-- The client's surroundings. -/
def e2eClientWorld : ClientWorld := knockWorld (.text e2eClientText) none
/-- `letmein knock server 22` -/
def e2eOpts : ClientOpts := knockOpts (.knock "server".toList 22 none none false false false false)

theorem e2e_fwd : ∃ k p, fwdMain e2eFwdOpts e2eFwdWorld = (k, .ok p) ∧
    p.setup.conf.resource ⟨0xBC5D8077⟩ = some { port := 22, tcp := true, udp := false, users := [] } ∧
    chainAccepts fwNames (lifeRun p.setup p.life (fwdEvents systemEvs)).core.kernel ⟨examplePeer, .tcp, 22⟩ = true ∧
    p.life.core.phase = .running ∧ p.setup.conf.nftTimeout = 600 * second := by
  have h : (match fwdMain e2eFwdOpts e2eFwdWorld with
      | (_, .ok p) => decide (p.setup.conf.resource ⟨0xBC5D8077⟩ = some { port := 22, tcp := true, udp := false, users := [] }) &&
          chainAccepts fwNames (lifeRun p.setup p.life (fwdEvents systemEvs)).core.kernel ⟨examplePeer, .tcp, 22⟩ &&
          decide (p.life.core.phase = .running) && decide (p.setup.conf.nftTimeout = 600 * second)
      | _ => false) = true := by decide +kernel
  split at h
  · rename_i k p hp
    simp only [Bool.and_eq_true, decide_eq_true_eq] at h
    exact ⟨k, p, hp, h.1.1.1, h.1.1.2, h.1.2, h.2⟩
  · cases h

theorem e2e_lm : ∃ q, lmMain e2eLmOpts e2eLmWorld = .ok q ∧
    proj 1 relayRun = (play (session toyMac q.conf examplePeer) exampleScript).1 ∧
    q.conf.key ⟨0xA423DDA7⟩ = some (Arr.replicate 32 7) ∧
    q.conf.resource ⟨0xBC5D8077⟩ = some { port := 22, tcp := true, udp := false, users := [] } ∧ q.conf.port.port = 5800 := by
  have h : (match lmMain e2eLmOpts e2eLmWorld with
      | .ok q => decide (proj 1 relayRun = (play (session toyMac q.conf examplePeer) exampleScript).1) &&
          decide (q.conf.key ⟨0xA423DDA7⟩ = some (Arr.replicate 32 7)) &&
          decide (q.conf.resource ⟨0xBC5D8077⟩ = some { port := 22, tcp := true, udp := false, users := [] }) && decide (q.conf.port.port = 5800)
      | _ => false) = true := by decide +kernel
  split at h
  · rename_i q hq
    simp only [Bool.and_eq_true, decide_eq_true_eq] at h
    exact ⟨q, hq, h.1.1.1, h.1.1.2, h.1.2, h.2⟩
  · cases h

theorem e2e_client : ∃ c, (Config.new .Client).load e2eClientWorld.f64 e2eClientWorld.order e2eOpts.config e2eClientWorld.file = (.ok (), c) ∧
    c.key ⟨0xA423DDA7⟩ = some (Arr.replicate 32 7) ∧
    c.resource ⟨0xBC5D8077⟩ = some { port := 22, tcp := true, udp := false, users := [⟨0xA423DDA7⟩] } ∧ c.defaultUser = ⟨0xA423DDA7⟩ := by
  have h : (match (Config.new .Client).load e2eClientWorld.f64 e2eClientWorld.order e2eOpts.config e2eClientWorld.file with
      | (.ok _, c) => decide (c.key ⟨0xA423DDA7⟩ = some (Arr.replicate 32 7)) &&
          decide (c.resource ⟨0xBC5D8077⟩ = some { port := 22, tcp := true, udp := false, users := [⟨0xA423DDA7⟩] }) &&
          decide (c.defaultUser = ⟨0xA423DDA7⟩)
      | _ => false) = true := by decide +kernel
  split at h
  · rename_i u c hc
    simp only [Bool.and_eq_true, decide_eq_true_eq] at h
    exact ⟨c, hc, h.1.1, h.1.2, h.2⟩
  · cases h

/-- The client of `relayRun` and a session of the letmeind that was started. -/
def e2eWho (q : LmProc) : Nat → Party
  | 0 => .client examplePeer ⟨0xA423DDA7⟩ ⟨0xBC5D8077⟩ (Arr.replicate 32 7)
  | 1 => .server q.conf examplePeer
  | _ => .nobody

/-- The hypotheses of `C80_only_described` are met by a history with a packet that is accepted and does not go to the control port. -/
example : ∃ k p q dS, fwdMain e2eFwdOpts e2eFwdWorld = (k, .ok p) ∧ lmMain e2eLmOpts e2eLmWorld = .ok q ∧
    FileDoc e2eFwdWorld.file dS ∧ FileDoc e2eLmWorld.file dS ∧ DocChain dS fwNames ∧ StartedRun toyMac (e2eWho q) p q e2eLmWorld.pid systemEvs ∧
    LifeFair p.setup fwNames p.life (fwdEvents systemEvs) ∧
    chainAccepts fwNames (lifeRun p.setup p.life (fwdEvents systemEvs)).core.kernel ⟨examplePeer, .tcp, 22⟩ = true ∧
    ¬ ToDocControlPort dS ⟨examplePeer, .tcp, 22⟩ := by
  obtain ⟨k, p, hp, _, hacc, _, _⟩ := e2e_fwd
  obtain ⟨q, hq, htr, _, _, hport⟩ := e2e_lm
  obtain ⟨ids, _, conf, fw, r, _, _, _, hload, hnew, _, _, rfl⟩ := fwdMain_ok hp
  obtain ⟨d, hd⟩ := C54_server_needs_document rfl hload
  have hd' : FileDoc e2eLmWorld.file d := hd
  obtain ⟨cF, vF⟩ := fwdMain_conf reverse_order hp hd
  obtain ⟨cL, vL, hpid⟩ := lmMain_conf id_order hq hd'
  refine ⟨k, _, q, d, hp, hq, hd, hd', ?_, ⟨?_, ?_, ?_, ?_⟩, ?_, hacc, ?_⟩
  · refine docChain_of cF vF ?_
    rw [← names_get_iff]
    have h : (match (Config.new .Server).load e2eFwdWorld.f64 e2eFwdWorld.order e2eFwdOpts.config e2eFwdWorld.file with
        | (_, c) => decide (NftNames.get c = .ok fwNames)) = true := by decide +kernel
    rw [hload] at h
    simpa using h
  · rw [systemEvs_sessions]
    intro sid
    match sid with
    | 0 => exact relayRun_run examplePeer 0
    | 1 =>
      refine ⟨(play (session toyMac q.conf examplePeer) exampleScript).2, ?_⟩
      rw [htr]
      exact play_trace _ _
    | n + 2 => exact ⟨none, rfl, .inl rfl⟩
  · intro sid c peer h
    match sid with
    | 0 => simp [e2eWho] at h
    | 1 => simp only [e2eWho, Party.server.injEq] at h; exact h.1.symm
    | n + 2 => simp [e2eWho] at h
  · intro cred text h
    rw [hpid, systemEvs_pidFile h]
    rfl
  · intro a cred pf b m now ok c he _
    exact ⟨1, q.conf, examplePeer, true, rfl, systemEvs_unixSocket he⟩
  · have hev : fwdEvents systemEvs = [.connect lifePeer (some (pidFileText 1234)),
        .message 0 (.msg (FwMessage.newOpen examplePeer .Tcp 22)) (1 * second) true, .maintain (2 * second) calmEnv,
        .connect none (some (pidFileText 1234))] := by
      simp [systemEvs, fwdEvents, relayRun]
    rw [hev]
    exact ⟨trivial, trivial, ⟨fun _ => ⟨rfl, Nat.le_refl _⟩, fun _ => ⟨rfl, Nat.le_refl _⟩⟩, trivial, trivial⟩
  · rintro ⟨cp, hcp, he, _⟩
    rw [given_unique (fileDoc_nodup hd) (unique_of_parse parsePort_iff) hcp cL.port, hport] at he
    exact absurd he (by decide)

/-- All hypotheses of `C80_command_opens` are met by these files, a run to its end, and the command `letmein knock server 22`; letmeinfwd has
served another client before. -/
example : ∃ k p q confC dS dC before evs W, fwdMain e2eFwdOpts e2eFwdWorld = (k, .ok p) ∧ lmMain e2eLmOpts e2eLmWorld = .ok q ∧
    FileDoc e2eLmWorld.file dS ∧ FileDoc e2eClientWorld.file dC ∧
    (Config.new .Client).load e2eClientWorld.f64 e2eClientWorld.order e2eOpts.config e2eClientWorld.file = (.ok (), confC) ∧
    Given dC "CLIENT" "default-user" (fun s (u : UserId) => IdText s u.raw) ⟨0⟩ ⟨0xA423DDA7⟩ ∧
    DocKey dC ⟨0xA423DDA7⟩ (Arr.replicate 32 7) ∧ DocKey dS ⟨0xA423DDA7⟩ (Arr.replicate 32 7) ∧
    DocResource dC ⟨0xBC5D8077⟩ { port := 22, tcp := true, udp := false, users := [⟨0xA423DDA7⟩] } ∧
    DocGrants dS ⟨0xA423DDA7⟩ ⟨0xBC5D8077⟩ { port := 22, tcp := true, udp := false, users := [] } ∧ DocChain dS fwNames ∧
    matchable fwNames.family examplePeer = true ∧
    before = [.request (.msg (FwMessage.newOpen (.v4 ⟨[192, 0, 2, 8], rfl⟩) .Tcp 22)) second true] ∧
    (fwdRun p.setup.conf p.life.core before).2.phase ≠ .stopped ∧
    WSteps p.setup.conf (Whole.init toyMac q.conf examplePeer ⟨0xA423DDA7⟩ ⟨0xBC5D8077⟩ (Arr.replicate 32 7) (fwdRun p.setup.conf p.life.core before).2)
      evs W ∧
    Fair p.setup.conf fwNames p.life.core (before ++ wholeOps evs) ∧ (∀ ok, FwdOp.terminate ok ∉ wholeOps evs) ∧
    (¬ ∃ e W', WEv.own e = true ∧ WStep p.setup.conf W e W') ∧
    (resolve e2eClientWorld.parseIp e2eClientWorld.dns "server".toList ⟨.Ipv4, e2eOpts.dns, e2eOpts.dnsCrypt⟩).2 = .ok (.v4 ⟨[10, 0, 0, 1], rfl⟩) ∧
    (∀ act, e2eClientWorld.opens act = true ∧
      W.client = .ret (e2eClientWorld.exchange ⟨0xA423DDA7⟩ ⟨0xBC5D8077⟩ (Arr.replicate 32 7) act)) := by
  obtain ⟨k, p, hp, hresF, _, hphase, _⟩ := e2e_fwd
  obtain ⟨q, hq, _, hkey, hres, hport⟩ := e2e_lm
  obtain ⟨confC, hl, kC, rC, dC⟩ := e2e_client
  obtain ⟨ids, _, conf, fw, r, _, _, _, hload, hnew, _, _, hpe⟩ := fwdMain_ok hp
  have hpc : p.setup.conf = conf := by rw [hpe]
  obtain ⟨d, hd⟩ := C54_server_needs_document rfl hload
  have hd' : FileDoc e2eLmWorld.file d := hd
  obtain ⟨cF, vF⟩ := fwdMain_conf reverse_order hp hd
  obtain ⟨cL, vL, hpid⟩ := lmMain_conf id_order hq hd'
  have hdocC : ∃ dc, FileDoc e2eClientWorld.file dc := by
    rcases load_ok_iff.1 hl with ⟨ini, c1, h3, -⟩ | ⟨_, _, rfl⟩
    · obtain ⟨d, hd, -⟩ := newFromFile_ok h3
      exact ⟨d, hd⟩
    · cases kC
  obtain ⟨dc, hdc⟩ := hdocC
  obtain ⟨cC, vC, _⟩ := C54_loaded_is_described id_order hdc hl
  have hchain : ChainOf p.setup.conf fwNames := by
    rw [← names_get_iff, hpc]
    have h : (match (Config.new .Server).load e2eFwdWorld.f64 e2eFwdWorld.order e2eFwdOpts.config e2eFwdWorld.file with
        | (_, c) => decide (NftNames.get c = .ok fwNames)) = true := by decide +kernel
    rw [hload] at h
    simpa using h
  have hg : Granted q.conf ⟨0xA423DDA7⟩ ⟨0xBC5D8077⟩ { port := 22, tcp := true, udp := false, users := [] } :=
    ⟨hres, .inl rfl, by rw [hport]; decide⟩
  obtain ⟨e1, e2⟩ := C80_one_file reverse_order hp id_order hq rfl hd' hg
  obtain ⟨_, _, _, _, _, _, _, hstart, _⟩ := lifeStart_ok (fwdMain_lifeStart hp)
  have hbefore : ∀ op ∈ [FwdOp.request (.msg (FwMessage.newOpen (.v4 ⟨[192, 0, 2, 8], rfl⟩) .Tcp 22)) second true],
      ∃ m now, op = .request (.msg m) now true := by
    intro op h
    rw [List.mem_singleton.1 h]
    exact ⟨_, _, rfl⟩
  have hns : (fwdRun p.setup.conf p.life.core [.request (.msg (FwMessage.newOpen (.v4 ⟨[192, 0, 2, 8], rfl⟩) .Tcp 22)) second true]).2.phase ≠ .stopped :=
    not_stopped_run (by rw [hphase]; simp) (fun ok h => by obtain ⟨_, _, hx⟩ := hbefore _ h; cases hx)
  have hcan : CanOpen p.setup.conf fwNames examplePeer 22 := ⟨e1, e2, by decide, by decide, by decide, by decide, by decide⟩
  have hfair := requests_fair (conf := p.setup.conf) (n := fwNames) hbefore p.life.core
  obtain ⟨evs, W, hrun, hown, hlen, hcl⟩ := C79_complete_run toyMac q.conf p.setup.conf examplePeer _ _ _ _ hkey hg (.inl rfl) fwNames hchain hcan _ _ _
    hstart _ hns hfair
  have hall : ∀ e ∈ evs, WEv.own e = true := by
    have h : evs.filter WEv.own = evs := List.filter_sublist.eq_of_length (by rw [hlen]; exact hown)
    exact List.filter_eq_self.1 h
  have hterm : ∀ ok, FwdOp.terminate ok ∉ wholeOps evs := by
    intro ok h
    obtain ⟨_, _, hx⟩ := own_ops hall _ h
    cases hx
  have hfair2 := fair_concat hfair (requests_fair (conf := p.setup.conf) (n := fwNames) (own_ops hall) _)
  refine ⟨k, p, q, confC, d, dc, _, evs, W, hp, hq, hd', hdc, hl, ?_, (cC.keys.keys _ _).1 kC, (cL.keys.keys _ _).1 hkey, (cC.resources.resources _ _).1 rC,
    (docGrants_iff (fileDoc_nodup hd) cL).1 hg, docChain_of cF vF hchain, by decide, rfl, hns, hrun, hfair2, hterm, ?_, by decide +kernel,
    fun _ => ⟨rfl, hcl⟩⟩
  · have := cC.defaultUser
    rw [if_pos (show confC.variant = .Client from vC), dC] at this
    exact this
  · rintro ⟨e, W', he, hs⟩
    have hops : ∀ ok, FwdOp.terminate ok ∉ wholeOps (evs ++ [e]) := by
      intro ok h
      obtain ⟨_, _, hx⟩ := own_ops (evs := evs ++ [e]) (fun x hx => by
        rcases List.mem_append.1 hx with h | h
        · exact hall x h
        · rw [List.mem_singleton.1 h]; exact he) _ h
      cases hx
    have hf3 := fair_concat hfair (requests_fair (conf := p.setup.conf) (n := fwNames) (own_ops (evs := evs ++ [e]) (fun x hx => by
        rcases List.mem_append.1 hx with h | h
        · exact hall x h
        · rw [List.mem_singleton.1 h]; exact he)) _)
    have := (C79_honest_knock_opens toyMac q.conf p.setup.conf examplePeer _ _ _ _ hkey hg (.inl rfl) fwNames hchain hcan _ _ _
      hstart _ hns _ W' (.step hrun hs) hf3 hops).1
    rw [ownSteps_append, hown, if_pos he] at this
    omega

end Letmein.Props
