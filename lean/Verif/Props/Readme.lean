import Verif.Props.Shipped
import Verif.Props.GenKeyWorks
import Verif.Props.Restart

/-!
# Property C125: the usage example of README.md

`/repo/README.md:40-105`: a key is generated for the user `00000000`, its line is put into the section `[KEYS]` of the installed files of server and client, the resource `00000022 = port: 22` is put
into the section `[RESOURCES]` of both, the services are restarted, the client runs `letmein knock -u 00000000 your-server.com 22`.
-/

namespace Letmein.Spec

/-- A line is put below the first line of the given content. -/
def putBelow {α : Type} [DecidableEq α] (header line : α) : List α → List α
  | [] => []
  | x :: xs => if x = header then x :: line :: xs else x :: putBelow header line xs

/-- The lines of an installed file, edited as in `/repo/README.md:60-76`. -/
def readmeLines (file : List String) (keyLine : Str) : List Str :=
  putBelow "[KEYS]".toList keyLine ((putBelow "[RESOURCES]" "00000022 = port: 22" file).map String.toList)

/-- The resource of `/repo/README.md:71`. -/
def readmeResource : Resource := { port := 22, tcp := true, udp := false, users := [] }

end Letmein.Spec

namespace Letmein.Props

open Letmein Prog Spec

theorem putBelow_split {α : Type} [DecidableEq α] {header line : α} {ls : List α} (h : header ∈ ls) :
    ∃ a b, ls = a ++ header :: b ∧ putBelow header line ls = a ++ header :: line :: b := by
  induction ls with
  | nil => cases h
  | cons x xs ih =>
    unfold putBelow
    by_cases hx : x = header
    · subst hx
      exact ⟨[], xs, rfl, by simp⟩
    · obtain ⟨a, b, h1, h2⟩ := ih ((List.mem_cons.1 h).resolve_left (Ne.symm hx))
      refine ⟨x :: a, b, by rw [h1]; rfl, ?_⟩
      rw [if_neg hx, h2]
      rfl

theorem putBelow_all {α : Type} [DecidableEq α] {header line : α} {p : α → Bool} {ls : List α} (h : ls.all p = true) (hl : p line = true) :
    (putBelow header line ls).all p = true := by
  induction ls with
  | nil => rfl
  | cons x xs ih =>
    rw [List.all_cons, Bool.and_eq_true] at h
    unfold putBelow
    split
    · simp [h.1, hl, h.2]
    · simp [h.1, ih h.2]

theorem putBelow_filter {α : Type} [DecidableEq α] {header line : α} {p : α → Bool} (hh : p header = true) (hl : p line = true) (ls : List α) :
    (putBelow header line ls).filter p = putBelow header line (ls.filter p) := by
  induction ls with
  | nil => rfl
  | cons x xs ih =>
    by_cases hx : x = header
    · subst hx
      rw [List.filter_cons_of_pos hh]
      simp [putBelow, hh, hl]
    · rw [putBelow, if_neg hx]
      cases hp : p x with
      | true => rw [List.filter_cons_of_pos hp, List.filter_cons_of_pos hp, ih, putBelow, if_neg hx]
      | false => rw [List.filter_cons_of_neg (by simp [hp]), List.filter_cons_of_neg (by simp [hp]), ih]

theorem readme_server_ok : (putBelow "[RESOURCES]" "00000022 = port: 22" shippedServer).all lineOk = true := putBelow_all shippedServer_ok (by decide +kernel)
theorem readme_client_ok : (putBelow "[RESOURCES]" "00000022 = port: 22" shippedClient).all lineOk = true := putBelow_all shippedClient_ok (by decide +kernel)

theorem readme_server_core : (putBelow "[RESOURCES]" "00000022 = port: 22" shippedServer).filter (fun l => !commentLine l) = serverCore ++ ["00000022 = port: 22"] := by
  rw [putBelow_filter (by decide +kernel) (by decide +kernel), shippedServer_core]
  decide +kernel

theorem readme_client_core : (putBelow "[RESOURCES]" "00000022 = port: 22" shippedClient).filter (fun l => !commentLine l) = clientCore ++ ["00000022 = port: 22"] := by
  rw [putBelow_filter (by decide +kernel) (by decide +kernel), shippedClient_core]
  decide +kernel

theorem readme_server_base : (Config.new .Server).load f64Secs id [] (.text (textOf (putBelow "[RESOURCES]" "00000022 = port: 22" shippedServer))) =
    (.ok (), { { freshServer with resources := [(⟨0x22⟩, readmeResource)] } with path := some [] }) := by
  rw [load_shipped readme_server_ok readme_server_core]
  decide +kernel

theorem readme_client_base : (Config.new .Client).load f64Secs id [] (.text (textOf (putBelow "[RESOURCES]" "00000022 = port: 22" shippedClient))) =
    (.ok (), { { freshClient with resources := [(⟨0x22⟩, readmeResource)] } with path := some [] }) := by
  rw [load_shipped readme_client_ok readme_client_core]
  decide +kernel

theorem keys_mem {p : String → Bool} {ls ls' : List String} (h : ls.filter p = ls') (hm : "[KEYS]" ∈ ls') : "[KEYS]".toList ∈ ls.map String.toList :=
  List.mem_map_of_mem (List.mem_filter.1 (h ▸ hm)).1

theorem text_has_doc {f64 : F64Secs} {order : IterOrder} {c c' : Config} {path s : Str} (h : c.load f64 order path (.text s) = (.ok (), c'))
    (hne : c.resources ≠ c'.resources) : ∃ d, FileDoc (.text s) d := by
  rcases load_ok_iff.1 h with ⟨ini, c1, h3, -⟩ | ⟨_, _, rfl⟩
  · obtain ⟨d, hd, -⟩ := newFromFile_ok h3
    exact ⟨d, hd⟩
  · exact absurd rfl hne

theorem readme_lines (file : List String) (hok : (putBelow "[RESOURCES]" "00000022 = port: 22" file).all lineOk = true)
    (hk : "[KEYS]".toList ∈ (putBelow "[RESOURCES]" "00000022 = port: 22" file).map String.toList) {variant : ConfigVariant} {c0 : Config}
    (hl : (Config.new variant).load f64Secs id [] (.text (textOf (putBelow "[RESOURCES]" "00000022 = port: 22" file))) = (.ok (), { c0 with path := some [] }))
    (hno : c0.keys = []) (hd : ∃ d, FileDoc (.text (textOf (putBelow "[RESOURCES]" "00000022 = port: 22" file))) d)
    {order : IterOrder} (ho : IsOrder order) (path : Str) {raw : Option (Arr KEY_SIZE)} {key : Key}
    (hkey : secureRandom KEY_SIZE raw = .ok key) (conf : Config) {s : Str} (hs : TextLines s (readmeLines file (genkeyLine conf (some ⟨0⟩) key))) :
    ∃ c, (Config.new variant).load f64Secs order path (.text s) = (.ok (), c) ∧ SameConf c { c0 with keys := [(⟨0⟩, key)] } := by
  obtain ⟨c1, h1, s1⟩ := same_conf_of ho path hl
  obtain ⟨a, b, e1, e2⟩ := putBelow_split (line := genkeyLine conf (some ⟨0⟩) key) hk
  have hb := textLines_textOf hok
  rw [e1] at hb
  rw [readmeLines, e2] at hs
  obtain ⟨c, h2, s2⟩ := C39_line_is_loaded ho hkey (.inl rfl) (h := "[KEYS]".toList) ⟨[], [], by decide, by simp [Blank], by simp [Blank], by decide⟩ hb hs hd h1
    (by rw [s1.keys]; simp [Config.key, hno, assocGet])
  refine ⟨c, h2, s2.variant.trans s1.variant, s2.debug.trans s1.debug, s2.port.trans s1.port, s2.controlTimeout.trans s1.controlTimeout,
    s2.controlErrorPolicy.trans s1.controlErrorPolicy, s2.seccomp.trans s1.seccomp, fun u => ?_, fun r => (s2.resources r).trans (s1.resources r),
    s2.defaultUser.trans s1.defaultUser, s2.nftExe.trans s1.nftExe, s2.nftFamily.trans s1.nftFamily, s2.nftTable.trans s1.nftTable,
    s2.nftChainInput.trans s1.nftChainInput, s2.nftTimeout.trans s1.nftTimeout⟩
  rw [s2.keys]
  have := s1.keys u
  simp only [Config.key, hno, assocGet] at this ⊢
  rw [this]

/-- **C125** (the files). Whichever key `letmein gen-key -u 00000000` generates: the edited files are loaded, in whatever order the maps are iterated and with either kind of line end.
letmeind, letmeinfwd and the client then have the settings of a fresh installation, and exactly this key of the user 0 and exactly the resource 22(hex), TCP port 22. -/
theorem C125_files {order : IterOrder} (ho : IsOrder order) (path : Str) {raw : Option (Arr KEY_SIZE)} {key : Key}
    (hkey : secureRandom KEY_SIZE raw = .ok key) (conf : Config) :
    (∀ s, TextLines s (readmeLines shippedServer (genkeyLine conf (some ⟨0⟩) key)) →
      ∃ c, (Config.new .Server).load f64Secs order path (.text s) = (.ok (), c) ∧
        SameConf c { freshServer with keys := [(⟨0⟩, key)], resources := [(⟨0x22⟩, readmeResource)] }) ∧
    ∀ s, TextLines s (readmeLines shippedClient (genkeyLine conf (some ⟨0⟩) key)) →
      ∃ c, (Config.new .Client).load f64Secs order path (.text s) = (.ok (), c) ∧
        SameConf c { freshClient with keys := [(⟨0⟩, key)], resources := [(⟨0x22⟩, readmeResource)] } := by
  constructor
  · intro s hs
    exact readme_lines _ readme_server_ok (keys_mem readme_server_core (by simp [serverCore])) readme_server_base rfl (text_has_doc readme_server_base (by decide)) ho path hkey conf hs
  · intro s hs
    exact readme_lines _ readme_client_ok (keys_mem readme_client_core (by simp [clientCore])) readme_client_base rfl (text_has_doc readme_client_base (by decide)) ho path hkey conf hs

/-- The server's file says what has been put into it, and nothing else about keys and resources. -/
theorem readme_server_doc {raw : Option (Arr KEY_SIZE)} {key : Key} (hkey : secureRandom KEY_SIZE raw = .ok key) (conf : Config) {s : Str}
    (hs : TextLines s (readmeLines shippedServer (genkeyLine conf (some ⟨0⟩) key))) :
    ∃ d c, FileDoc (.text s) d ∧ ConfOf f64Secs d c ∧ c.variant = .Server ∧
      SameConf c { freshServer with keys := [(⟨0⟩, key)], resources := [(⟨0x22⟩, readmeResource)] } := by
  obtain ⟨c, h1, h2⟩ := (C125_files id_order [] hkey conf).1 s hs
  obtain ⟨d, hd⟩ := C54_server_needs_document rfl h1
  have := C54_loaded_is_described id_order hd h1
  exact ⟨d, c, hd, this.1, this.2.1, h2⟩

theorem readme_grants {d : Doc} {c : Config} {key : Key} (hd : (d.map (·.1)).Nodup) (hc : ConfOf f64Secs d c)
    (hs : SameConf c { freshServer with keys := [(⟨0⟩, key)], resources := [(⟨0x22⟩, readmeResource)] }) {u : UserId} {r : ResourceId} {res : Resource} :
    DocGrants d u r res ↔ r = ⟨0x22⟩ ∧ res = readmeResource := by
  rw [← docGrants_iff hd hc]
  constructor
  · intro g
    have := g.configured
    rw [hs.resources] at this
    simp only [Config.resource, assocGet] at this
    split at this
    · rename_i h
      exact ⟨h.symm, (Option.some.inj this).symm⟩
    · cases this
  · rintro ⟨rfl, rfl⟩
    refine ⟨?_, .inl rfl, ?_⟩
    · rw [hs.resources]; rfl
    · rw [hs.port]; exact show (22 : UInt16) ≠ 5800 by decide

theorem readme_key {d : Doc} {c : Config} {key : Key} (hc : ConfOf f64Secs d c)
    (hs : SameConf c { freshServer with keys := [(⟨0⟩, key)], resources := [(⟨0x22⟩, readmeResource)] }) {u : UserId} {k : Key} :
    DocKey d u k ↔ u = ⟨0⟩ ∧ k = key := by
  rw [show DocKey d u k ↔ c.key u = some k from (hc.keys.keys u k).symm, hs.keys]
  simp only [Config.key, assocGet]
  constructor
  · intro h
    split at h
    · rename_i h1
      exact ⟨h1.symm, (Option.some.inj h).symm⟩
    · cases h
  · rintro ⟨rfl, rfl⟩
    rfl

theorem readme_chain {d : Doc} {c : Config} {key : Key} (hc : ConfOf f64Secs d c) (hv : c.variant = .Server)
    (hs : SameConf c { freshServer with keys := [(⟨0⟩, key)], resources := [(⟨0x22⟩, readmeResource)] }) : DocChain d freshNames :=
  docChain_of hc hv ⟨hs.nftFamily, hs.nftTable, hs.nftChainInput, by decide, by decide⟩

/-- **C125** (`/repo/README.md:99-105`). letmeind and letmeinfwd have been restarted with the edited file, and the client has its own one. The host has an address in a selected family, the connection to it
can be opened, and the exchange with the servers over it runs to its end without interference, while letmeinfwd also serves others. Then `letmein knock -u 00000000 your-server.com 22` ends in success,
and TCP port 22 is open for the client's address. -/
theorem C125_knock {raw : Option (Arr KEY_SIZE)} {key : Key} (hkey : secureRandom KEY_SIZE raw = .ok key) {conf : Config}
    {sS : Str} (hsS : TextLines sS (readmeLines shippedServer (genkeyLine conf (some ⟨0⟩) key)))
    {sC : Str} (hsC : TextLines sC (readmeLines shippedClient (genkeyLine conf (some ⟨0⟩) key)))
    -- the servers, started from the edited file
    {mac : MacFn} {oF : FwdOpts} {wF : FwdWorld} (hoF : IsOrder wF.order) (hfF : wF.file = .text sS) {kF : Kernel} {fwd : FwdProc}
    (hF : fwdMain oF wF = (kF, .ok fwd)) {oL : LmOpts} {wL : LmWorld} (hoL : IsOrder wL.order) (hfL : wL.file = .text sS) {lm : LmProc}
    (hL : lmMain oL wL = .ok lm)
    -- the client's command line
    {o : ClientOpts} {w : ClientWorld} (ho : IsOrder w.order) (h64 : w.f64 = f64Secs) (hfC : w.file = .text sC) (hinst : w.installOk = true)
    (hv : o.version = false) {host : Str} {sp : Option UInt16} {tcp udp v4 v6 : Bool} (hcmd : o.command = some (.knock host 22 (some ⟨0⟩) sp tcp udp v4 v6))
    -- the client's address, as the server sees it
    {peer : IpAddr} (hpeer : OrdinaryAddr peer)
    -- what letmeinfwd does before and during the knock
    {before : List FwdOp} (hb : (fwdRun fwd.setup.conf fwd.life.core before).2.phase ≠ .stopped) {evs : List WEv} {W : Whole}
    (hrun : WSteps fwd.setup.conf (Whole.init mac lm.conf peer ⟨0⟩ ⟨0x22⟩ key (fwdRun fwd.setup.conf fwd.life.core before).2) evs W)
    (hfair : Fair fwd.setup.conf freshNames fwd.life.core (before ++ wholeOps evs)) (hterm : ∀ ok, FwdOp.terminate ok ∉ wholeOps evs)
    (hend : ¬ ∃ e W', WEv.own e = true ∧ WStep fwd.setup.conf W e W')
    -- the connection, and the exchange over it
    {m : ResMode} (hm : Selects v4 v6 m) {a : IpAddr} (hres : (resolve w.parseIp w.dns host ⟨m, o.dns, o.dnsCrypt⟩).2 = .ok a)
    (hopen : ∀ conf act, conf.port = freshClient.port → Connection ⟨host, AddrMode.ofFlags v4 v6, sp, tcp, udp⟩ conf a act →
      w.opens act = true ∧ W.client = .ret (w.exchange ⟨0⟩ ⟨0x22⟩ key act))
    (hnp : ∀ act, w.exchange ⟨0⟩ ⟨0x22⟩ key act ≠ .panic) :
    (clientMain o w).2 = .ok () ∧
      (Within fwd.setup.conf.nftTimeout (wholeOps evs) → ∀ pkt : Packet, pkt.src = hostOf peer → pkt.proto = .tcp → pkt.dport = 22 →
        chainAccepts freshNames W.fwd.kernel pkt = true) := by
  obtain ⟨d, c, hd, hc, hvS, hs⟩ := readme_server_doc hkey conf hsS
  have hnd := fileDoc_nodup hd
  obtain ⟨cC, hlC, sC'⟩ := (C125_files ho o.config hkey conf).2 sC hsC
  rw [← h64, ← hfC] at hlC
  obtain ⟨dC, hdC⟩ : ∃ dC, FileDoc w.file dC := by
    rcases load_ok_iff.1 hlC with ⟨ini, c1, h3, -⟩ | ⟨_, _, rfl⟩
    · obtain ⟨d, hd, -⟩ := newFromFile_ok h3
      exact ⟨d, hd⟩
    · have := sC'.keys ⟨0⟩
      simp [Config.key, Config.new, assocGet] at this
  obtain ⟨hcC, vC, _⟩ := C54_loaded_is_described ho hdC hlC
  have hkC : cC.key ⟨0⟩ = some key := by rw [sC'.keys]; rfl
  have hrC : cC.resource ⟨0x22⟩ = some readmeResource := by rw [sC'.resources]; rfl
  obtain ⟨p1, p2, p3, p4⟩ := hpeer
  obtain ⟨h1, h2⟩ := C80_command_opens hoF hF hoL hL (hfF.trans hfL.symm) (hfL ▸ hd) ho hinst hv hcmd hdC hlC (.inl rfl) ((hcC.keys.keys _ _).1 hkC)
    ((readme_key hc hs).2 ⟨rfl, rfl⟩) ((hcC.resources.resources _ _).1 hrC) rfl (.inl rfl) ((readme_grants hnd hc hs).2 ⟨rfl, rfl⟩) (readme_chain hc hvS hs)
    (by cases peer <;> rfl) ⟨p1, p2, p3, p4⟩ hb hrun hfair hterm hend hm hres (fun act => hopen cC act sC'.port) hnp
  exact ⟨h1, fun hw pkt e1 e2 e3 => h2 hw pkt e1 e3 (.inl ⟨e2, rfl⟩)⟩

/-- **C125** (`/repo/README.md:94-97`: "This must fail! No successful knock authentication, yet."). Both servers have been started from the edited file. Whatever the network, the clients and other processes do
afterwards: a packet that the chain accepts is TCP to port 5800; or it is TCP to port 22, from the address of a session of letmeind whose challenge was answered by a holder of the generated key (or the
MAC was broken). -/
theorem C125_nobody_else {raw : Option (Arr KEY_SIZE)} {key : Key} (hkey : secureRandom KEY_SIZE raw = .ok key) {conf : Config}
    {s : Str} (hs : TextLines s (readmeLines shippedServer (genkeyLine conf (some ⟨0⟩) key)))
    {mac : MacFn} {who : Nat → Party} {oF : FwdOpts} {wF : FwdWorld} (hoF : IsOrder wF.order) (hfF : wF.file = .text s) {kF : Kernel} {fwd : FwdProc}
    (hF : fwdMain oF wF = (kF, .ok fwd)) (htest : oF.testMode = false) {oL : LmOpts} {wL : LmWorld} (hoL : IsOrder wL.order) (hfL : wL.file = .text s)
    {lm : LmProc} (hL : lmMain oL wL = .ok lm) {evs : List SysEv} (hrun : StartedRun mac who fwd lm wL.pid evs)
    (hf : LifeFair fwd.setup freshNames fwd.life (fwdEvents evs)) (pkt : Packet)
    (hacc : chainAccepts freshNames (lifeRun fwd.setup fwd.life (fwdEvents evs)).core.kernel pkt = true) :
    (pkt.proto = .tcp ∧ pkt.dport = 5800) ∨
      (pkt.proto = .tcp ∧ pkt.dport = 22 ∧ ∃ a sid e b peer nonce, evs = a ++ .session sid e :: b ∧ pkt.src = hostOf peer ∧
        (sid, ⟨.rand32, some nonce⟩) ∈ sessionEvs a ∧
        ((∃ g1 cid ev g2, sessionEvs a = g1 ++ (cid, ev) :: g2 ∧ Answers mac who g1 cid ev key ⟨0⟩ ⟨0x22⟩ nonce) ∨
          Forgery mac who (sessionEvs a) key ∨ CollisionInRun mac who (sessionEvs a) key)) := by
  obtain ⟨d, c, hd, hc, hvS, hsc⟩ := readme_server_doc hkey conf hs
  have hnd := fileDoc_nodup hd
  rcases C80_only_described hoF hF htest (hfF ▸ hd) hoL hL (hfL ▸ hd) (readme_chain hc hvS hsc) hrun hf pkt hacc with
    ⟨cp, h1, h2, h3⟩ | ⟨a, sid, e, b, m, peer, u, r, res, k, nonce, e1, e2, e3, e4, e5, e6, e7⟩
  · left
    rw [given_unique hnd (unique_of_parse parsePort_iff) h1 hc.port, hsc.port] at h2 h3
    rcases h3 with h3 | h3
    · exact ⟨h3.1, h2⟩
    · exact absurd h3.2 (show ¬ (false = true) by simp)
  · right
    obtain ⟨rfl, rfl⟩ := (readme_grants hnd hc hsc).1 e4
    obtain ⟨rfl, rfl⟩ := (readme_key hc hsc).1 e5
    obtain ⟨s1, s2, s3⟩ := e3
    have ht : pkt.proto = .tcp := by
      rcases s3 with h | h
      · exact h.1
      · exact absurd h.2 (show ¬ (false = true) by simp)
    exact ⟨ht, s2, a, sid, e, b, peer, nonce, e1, s1, e6, e7⟩

/-- **C125** (the second restart). letmeind has been restarted with the edited file, letmeinfwd still runs with the installed one (`/repo/README.md:78-82`, before `/repo/README.md:86-90`). Then the knock
fails on both sides, however letmeinfwd serves others meanwhile, and leaves letmeinfwd as it would have been. -/
theorem C125_second_restart {raw : Option (Arr KEY_SIZE)} {key : Key} (hkey : secureRandom KEY_SIZE raw = .ok key) {conf : Config}
    {s : Str} (hs : TextLines s (readmeLines shippedServer (genkeyLine conf (some ⟨0⟩) key)))
    {mac : MacFn} {oF : FwdOpts} {wF : FwdWorld} (hoF : IsOrder wF.order) (hfF : wF.file = .text (textOf shippedServer)) {kF : Kernel}
    {fwd : FwdProc} (hF : fwdMain oF wF = (kF, .ok fwd)) {oL : LmOpts} {wL : LmWorld} (hoL : IsOrder wL.order) (hfL : wL.file = .text s)
    {lm : LmProc} (hL : lmMain oL wL = .ok lm) {peer : IpAddr} (hpeer : OrdinaryAddr peer)
    {before : List FwdOp} (hb : (fwdRun fwd.setup.conf fwd.life.core before).2.phase ≠ .stopped) {evs : List WEv} {W : Whole}
    (hrun : WSteps fwd.setup.conf (Whole.init mac lm.conf peer ⟨0⟩ ⟨0x22⟩ key (fwdRun fwd.setup.conf fwd.life.core before).2) evs W)
    (hfair : Fair fwd.setup.conf freshNames fwd.life.core (before ++ wholeOps evs)) (hterm : ∀ ok, FwdOp.terminate ok ∉ wholeOps evs)
    (hend : ¬ ∃ e W', WEv.own e = true ∧ WStep fwd.setup.conf W e W') :
    W.client = .ret .err ∧ W.server = .ret .err ∧
      W.fwd = (fwdRun fwd.setup.conf (fwdRun fwd.setup.conf fwd.life.core before).2 (othersOps evs)).2 := by
  obtain ⟨d, c, hd, hc, hvS, hsc⟩ := readme_server_doc hkey conf hs
  obtain ⟨cF, hlF, sF⟩ := (C113_loaded hoF []).1
  obtain ⟨dF, hdF⟩ := C54_server_needs_document rfl hlF
  obtain ⟨hcF, vF, -⟩ := C54_loaded_is_described hoF hdF hlF
  refine (C107_knock_iff hoF hF (hfF ▸ hdF) hoL hL (hfL ▸ hd) ((readme_key hc hsc).2 ⟨rfl, rfl⟩) ((readme_grants (fileDoc_nodup hd) hc hsc).2 ⟨rfl, rfl⟩)
    (docChain_of (n := freshNames) hcF vF ⟨sF.nftFamily, sF.nftTable, sF.nftChainInput, by decide, by decide⟩) (by cases peer <;> rfl) hpeer hb hrun hfair hterm hend).2 ?_
  rintro ⟨⟨r, res, h, _⟩, _⟩
  have := (hcF.resources.resources r res).2 h
  rw [sF.resources] at this
  cases this

/-- **C125** (it works). The hypotheses of `C125_knock` about the run can be met, whichever key has been generated and wherever the servers run. Without interference the exchange takes 18 steps and ends in
success. -/
theorem C125_possible {raw : Option (Arr KEY_SIZE)} {key : Key} (hkey : secureRandom KEY_SIZE raw = .ok key) {conf : Config}
    {s : Str} (hs : TextLines s (readmeLines shippedServer (genkeyLine conf (some ⟨0⟩) key)))
    (mac : MacFn) {oF : FwdOpts} {wF : FwdWorld} (hoF : IsOrder wF.order) (hfF : wF.file = .text s) {kF : Kernel} {fwd : FwdProc}
    (hF : fwdMain oF wF = (kF, .ok fwd)) {oL : LmOpts} {wL : LmWorld} (hoL : IsOrder wL.order) (hfL : wL.file = .text s)
    {lm : LmProc} (hL : lmMain oL wL = .ok lm) {peer : IpAddr} (hpeer : OrdinaryAddr peer) :
    ∃ evs W, WSteps fwd.setup.conf (Whole.init mac lm.conf peer ⟨0⟩ ⟨0x22⟩ key fwd.life.core) evs W ∧ evs.length = 18 ∧
      Fair fwd.setup.conf freshNames fwd.life.core (wholeOps evs) ∧ (∀ ok, FwdOp.terminate ok ∉ wholeOps evs) ∧
      (¬ ∃ e W', WEv.own e = true ∧ WStep fwd.setup.conf W e W') ∧ W.client = .ret (.ok ()) := by
  obtain ⟨d, c, hd, hc, hvS, hsc⟩ := readme_server_doc hkey conf hs
  have hnd := fileDoc_nodup hd
  obtain ⟨cF, vF⟩ := fwdMain_conf hoF hF (hfF ▸ hd)
  obtain ⟨cL, vL, _⟩ := lmMain_conf hoL hL (hfL ▸ hd)
  have hchain := chainOf_doc hnd cF vF (readme_chain hc hvS hsc)
  have hg : Granted lm.conf ⟨0⟩ ⟨0x22⟩ readmeResource := (docGrants_iff hnd cL).2 ((readme_grants hnd hc hsc).2 ⟨rfl, rfl⟩)
  have hk : lm.conf.key ⟨0⟩ = some key := (cL.keys.keys _ _).2 ((readme_key hc hsc).2 ⟨rfl, rfl⟩)
  obtain ⟨e1, e2⟩ := C80_one_file hoF hF hoL hL (hfF.trans hfL.symm) (hfL ▸ hd) hg
  obtain ⟨_, _, _, _, _, _, _, hstart, _⟩ := lifeStart_ok (fwdMain_lifeStart hF)
  have hns : (fwdRun fwd.setup.conf fwd.life.core []).2.phase ≠ .stopped := by
    rw [show (fwdRun fwd.setup.conf fwd.life.core []).2.phase = .running from (fwdStart_inv hstart).1]; simp
  obtain ⟨p1, p2, p3, p4⟩ := hpeer
  have hcan : CanOpen fwd.setup.conf freshNames peer readmeResource.port := ⟨e1, e2, by cases peer <;> rfl, p1, p2, p3, p4⟩
  obtain ⟨evs, W, hrun, hown, hlen, hcl⟩ := C79_complete_run mac lm.conf fwd.setup.conf peer _ _ _ _ hk hg (.inl rfl) freshNames hchain hcan _ _ _
    hstart [] hns trivial
  have hall : ∀ e ∈ evs, WEv.own e = true := by
    have h : evs.filter WEv.own = evs := List.filter_sublist.eq_of_length (by rw [hlen]; exact hown)
    exact List.filter_eq_self.1 h
  refine ⟨evs, W, hrun, hlen, requests_fair (own_ops hall) _, fun ok h => ?_, ?_, hcl⟩
  · obtain ⟨_, _, hx⟩ := own_ops hall _ h
    cases hx
  · rintro ⟨e, W', he, hstep⟩
    have hall' : ∀ x ∈ evs ++ [e], WEv.own x = true := fun x hx => by
      rcases List.mem_append.1 hx with h | h
      · exact hall x h
      · rw [List.mem_singleton.1 h]; exact he
    have := (C79_honest_knock_opens mac lm.conf fwd.setup.conf peer _ _ _ _ hk hg (.inl rfl) freshNames hchain hcan _ _ _
      hstart [] hns _ W' (.step hrun hstep) (requests_fair (own_ops hall') _) (fun ok h => by obtain ⟨_, _, hx⟩ := own_ops hall' _ h; cases hx)).1
    rw [ownSteps_append, hown, if_pos he] at this
    omega

/-! ## A concrete case -/

theorem putBelow_map {header line : String} (ls : List String) :
    (putBelow header line ls).map String.toList = putBelow header.toList line.toList (ls.map String.toList) := by
  induction ls with
  | nil => rfl
  | cons x xs ih =>
    simp only [putBelow, List.map_cons, String.toList_inj]
    split
    · simp
    · simp [ih]

/-- The line that `gen-key` has printed. -/
def readmeKeyLine : String := "00000000 = 0A0A0A0A0A0A0A0A0A0A0A0A0A0A0A0A0A0A0A0A0A0A0A0A0A0A0A0A0A0A0AFB"

theorem readme_key_line : readmeKeyLine.toList = genkeyLine freshClient (some ⟨0⟩) genkeyExampleKey := by decide +kernel

theorem readme_key_ok : secureRandom KEY_SIZE (some genkeyExampleKey) = .ok genkeyExampleKey := by decide +kernel

/-- The edited file of the server. -/
def readmeServer : List String := putBelow "[KEYS]" readmeKeyLine (putBelow "[RESOURCES]" "00000022 = port: 22" shippedServer)
/-- The edited file of the client. -/
def readmeClient : List String := putBelow "[KEYS]" readmeKeyLine (putBelow "[RESOURCES]" "00000022 = port: 22" shippedClient)
/-- Its lines without the comments. -/
def readmeServerCore : List String := putBelow "[KEYS]" readmeKeyLine (serverCore ++ ["00000022 = port: 22"])

theorem readmeServer_ok : readmeServer.all lineOk = true := putBelow_all readme_server_ok (by decide +kernel)

theorem readmeServer_lines : TextLines (textOf readmeServer) (readmeLines shippedServer (genkeyLine freshClient (some ⟨0⟩) genkeyExampleKey)) := by
  rw [readmeLines, ← readme_key_line, ← putBelow_map]
  exact textLines_textOf readmeServer_ok

theorem readmeClient_lines : TextLines (textOf readmeClient) (readmeLines shippedClient (genkeyLine freshClient (some ⟨0⟩) genkeyExampleKey)) := by
  rw [readmeLines, ← readme_key_line, ← putBelow_map]
  exact textLines_textOf (putBelow_all readme_client_ok (by decide +kernel))

theorem readmeServer_core (order : IterOrder) (path : Str) :
    (Config.new .Server).load f64Secs order path (.text (textOf readmeServer)) = (Config.new .Server).load f64Secs order path (.text (textOf readmeServerCore)) :=
  load_shipped readmeServer_ok (by
    unfold readmeServer readmeServerCore
    rw [putBelow_filter (by decide +kernel) (by decide +kernel), readme_server_core])

/-- Did the program start? -/
def fwdStarted : Kernel × R FwdProc → Bool
  | (_, .ok _) => true
  | _ => false

/-- Did the program start? -/
def lmStarted : R LmProc → Bool
  | .ok _ => true
  | _ => false

theorem readme_fwd : ∃ k p, fwdMain e2eFwdOpts { freshWorld with file := .text (textOf readmeServer) } = (k, .ok p) := by
  have h := (congrArg fwdStarted (fwdMain_file (o := e2eFwdOpts) (w := freshWorld) (readmeServer_core _ _))).trans
    (show fwdStarted (fwdMain e2eFwdOpts { freshWorld with file := .text (textOf readmeServerCore) }) = true by decide +kernel)
  generalize fwdMain e2eFwdOpts { freshWorld with file := .text (textOf readmeServer) } = x at h
  obtain ⟨k, (p | _ | _)⟩ := x
  · exact ⟨k, p, rfl⟩
  · cases h
  · cases h

theorem readme_lm : ∃ q, lmMain e2eLmOpts { freshLmWorld with file := .text (textOf readmeServer) } = .ok q := by
  have h := (congrArg lmStarted (lmMain_file (o := e2eLmOpts) (w := freshLmWorld) (readmeServer_core _ _))).trans
    (show lmStarted (lmMain e2eLmOpts { freshLmWorld with file := .text (textOf readmeServerCore) }) = true by decide +kernel)
  generalize lmMain e2eLmOpts { freshLmWorld with file := .text (textOf readmeServer) } = x at h
  obtain (q | _ | _) := x
  · exact ⟨q, rfl⟩
  · cases h
  · cases h

/-- `letmein knock -u 00000000 your-server.com 22` -/
def readmeOpts : ClientOpts := knockOpts (.knock "your-server.com".toList 22 (some ⟨0⟩) none false false false false)

/-- The client's surroundings. -/
def readmeWorld : ClientWorld := { knockWorld (.text (textOf readmeClient)) none with f64 := f64Secs }

/-- The servers start from the edited file; the hypotheses of `C125_knock` are met by a run of theirs with the command of README.md, which therefore ends in success and opens the port. -/
example : ∃ k p q evs W, fwdMain e2eFwdOpts { freshWorld with file := .text (textOf readmeServer) } = (k, .ok p) ∧
    lmMain e2eLmOpts { freshLmWorld with file := .text (textOf readmeServer) } = .ok q ∧
    WSteps p.setup.conf (Whole.init toyMac q.conf examplePeer ⟨0⟩ ⟨0x22⟩ genkeyExampleKey p.life.core) evs W ∧ evs.length = 18 ∧
    (clientMain readmeOpts readmeWorld).2 = .ok () ∧
    (Within p.setup.conf.nftTimeout (wholeOps evs) → chainAccepts freshNames W.fwd.kernel ⟨hostOf examplePeer, .tcp, 22⟩ = true) := by
  obtain ⟨k, p, hp⟩ := readme_fwd
  obtain ⟨q, hq⟩ := readme_lm
  have hpeer : OrdinaryAddr examplePeer := ⟨by decide, by decide, by decide, by decide⟩
  obtain ⟨evs, W, hrun, hlen, hfair, hterm, hend, hcl⟩ := C125_possible readme_key_ok readmeServer_lines toyMac reverse_order rfl hp id_order rfl hq hpeer
  obtain ⟨_, _, _, _, _, _, _, hstart, _⟩ := lifeStart_ok (fwdMain_lifeStart hp)
  obtain ⟨h1, h2⟩ := C125_knock (before := []) (m := .Ipv4) (a := .v4 ⟨[10, 0, 0, 1], rfl⟩) (o := readmeOpts) (w := readmeWorld) readme_key_ok readmeServer_lines readmeClient_lines
    reverse_order rfl hp id_order rfl hq id_order rfl rfl rfl rfl rfl hpeer
    (by rw [show (fwdRun p.setup.conf p.life.core []).2.phase = .running from (fwdStart_inv hstart).1]; simp) hrun hfair hterm hend (.inr (.inr ⟨rfl, rfl⟩))
    (by decide +kernel) (fun _ _ _ _ => ⟨rfl, hcl⟩) (fun _ h => by cases h)
  exact ⟨k, p, q, evs, W, hp, hq, hrun, hlen, h1, fun hw => h2 hw _ rfl rfl rfl⟩

/-- letmeind starts from the edited file while letmeinfwd runs with the installed one; the hypotheses of `C125_second_restart` are met by a run to its end. -/
example : ∃ k p q evs W, fwdMain e2eFwdOpts { freshWorld with file := .text (textOf shippedServer) } = (k, .ok p) ∧
    lmMain e2eLmOpts { freshLmWorld with file := .text (textOf readmeServer) } = .ok q ∧
    WSteps p.setup.conf (Whole.init toyMac q.conf examplePeer ⟨0⟩ ⟨0x22⟩ genkeyExampleKey p.life.core) evs W ∧
    (¬ ∃ e W', WEv.own e = true ∧ WStep p.setup.conf W e W') ∧ W.client = .ret .err := by
  obtain ⟨q, hq⟩ := readme_lm
  obtain ⟨k, p, hp⟩ : ∃ k p, fwdMain e2eFwdOpts { freshWorld with file := .text (textOf shippedServer) } = (k, .ok p) := by
    have h := (congrArg freshCheck (fwdMain_file (o := e2eFwdOpts) (w := freshWorld) (shipped_core _ _))).trans fresh_fwd
    generalize fwdMain e2eFwdOpts { freshWorld with file := .text (textOf shippedServer) } = x at h
    obtain ⟨k, (p | _ | _)⟩ := x
    · exact ⟨k, p, rfl⟩
    · cases h
    · cases h
  have hpeer : OrdinaryAddr examplePeer := ⟨by decide, by decide, by decide, by decide⟩
  obtain ⟨ids, _, conf, fw, r, _, _, _, hload, _, _, _, hpe⟩ := fwdMain_ok hp
  have hpc : p.setup.conf = conf := by rw [hpe]
  have hs := fresh_server reverse_order hload
  rw [← hpc] at hs
  obtain ⟨d, hd⟩ := C54_server_needs_document rfl hload
  have hcF := (fwdMain_conf reverse_order hp hd).1
  obtain ⟨dL, cL, hdL, hcL, _, hsL⟩ := readme_server_doc readme_key_ok freshClient readmeServer_lines
  obtain ⟨hcq, _, _⟩ := lmMain_conf id_order hq hdL
  obtain ⟨_, _, _, _, _, _, _, hstart, _⟩ := lifeStart_ok (fwdMain_lifeStart hp)
  have hns : p.life.core.phase ≠ .stopped := by rw [(fwdStart_inv hstart).1]; simp
  obtain ⟨evs, W, hrun, hall, hend⟩ := refused_complete toyMac ((hcq.keys.keys _ _).2 ((readme_key hcL hsL).2 ⟨rfl, rfl⟩))
    ((docGrants_iff (fileDoc_nodup hdL) hcq).2 ((readme_grants (fileDoc_nodup hdL) hcL hsL).2 ⟨rfl, rfl⟩)) (.inl rfl) (n := freshNames)
    ⟨hs.nftFamily, hs.nftTable, hs.nftChainInput, by decide, by decide⟩
    (by
      rintro ⟨⟨⟨r, res⟩, he, _⟩, _⟩
      have := (assocGet_eq_some_iff hcF.resourcesNodup).2 he
      have h2 := hs.resources r
      rw [Config.resource, this] at h2
      cases h2) hstart hns (peer := examplePeer)
  refine ⟨k, p, q, evs, W, hp, hq, hrun, hend, (C125_second_restart (before := []) readme_key_ok readmeServer_lines reverse_order rfl hp id_order rfl hq hpeer hns hrun
    (requests_fair (own_ops hall) _) (fun ok h => ?_) hend).1⟩
  obtain ⟨_, _, hx⟩ := own_ops hall _ h
  cases hx

/-- letmeind connects to letmeinfwd, which then maintains its leases. -/
def readmeEvs : List SysEv := [.fwd (.connect lifePeer (some (pidFileText 1234))), .fwd (.maintain (2 * second) calmEnv)]

/-- Does the chain accept the control port? -/
def readmeCheck : Kernel × R FwdProc → Bool
  | (_, .ok p) => chainAccepts freshNames (lifeRun p.setup p.life (fwdEvents readmeEvs)).core.kernel ⟨examplePeer, .tcp, 5800⟩
  | _ => false

/-- The hypotheses of `C125_nobody_else` are met by a history in which nobody has knocked; the chain accepts the control port. -/
example : ∃ k p q, fwdMain e2eFwdOpts { freshWorld with file := .text (textOf readmeServer) } = (k, .ok p) ∧
    lmMain e2eLmOpts { freshLmWorld with file := .text (textOf readmeServer) } = .ok q ∧ StartedRun toyMac (fun _ => .nobody) p q freshLmWorld.pid readmeEvs ∧
    LifeFair p.setup freshNames p.life (fwdEvents readmeEvs) ∧
    chainAccepts freshNames (lifeRun p.setup p.life (fwdEvents readmeEvs)).core.kernel ⟨examplePeer, .tcp, 5800⟩ = true := by
  obtain ⟨q, hq⟩ := readme_lm
  have h := (congrArg readmeCheck (fwdMain_file (o := e2eFwdOpts) (w := freshWorld) (readmeServer_core _ _))).trans
    (show readmeCheck (fwdMain e2eFwdOpts { freshWorld with file := .text (textOf readmeServerCore) }) = true by decide +kernel)
  generalize hx : fwdMain e2eFwdOpts { freshWorld with file := .text (textOf readmeServer) } = x at h
  obtain ⟨dL, cL, hdL, -⟩ := readme_server_doc readme_key_ok freshClient readmeServer_lines
  obtain ⟨_, _, hpid⟩ := lmMain_conf id_order hq hdL
  obtain ⟨k, (p | _ | _)⟩ := x
  · refine ⟨k, p, q, rfl, hq, ⟨fun sid => ⟨none, rfl, .inl rfl⟩, fun _ _ _ h => by simp at h, fun cred text h => ?_, ?_⟩,
      ⟨trivial, ⟨fun _ => ⟨rfl, Nat.le_refl _⟩, fun _ => ⟨rfl, Nat.le_refl _⟩⟩, trivial⟩, h⟩
    · rw [hpid]
      simp [readmeEvs] at h
      rw [h.2]
      rfl
    · intro a cred pf b m now ok c he _
      have := congrArg List.length he
      simp [readmeEvs] at he
      match a, b with
      | [], [] => simp at he
      | [], [x] => simp at he
      | [], _ :: _ :: _ => simp [readmeEvs] at this
      | [x], _ => simp at he
      | _ :: _ :: _, _ => simp [readmeEvs] at this
  · cases h
  · cases h

end Letmein.Props
