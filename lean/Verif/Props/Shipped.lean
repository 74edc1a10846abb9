import Verif.Props.ConfWrite
import Verif.Props.EndToEnd
import Verif.Props.Flow
import Verif.Lemmas.GoAway

/-!
# Property C113: a fresh installation lets nobody in

The configuration files that the installers copy (`/repo/install-server.sh:33-44`, `/repo/install-client.sh:25-36`): `shippedServer` and `shippedClient` of `Props/ConfWrite.lean`.
-/

namespace Letmein.Props

open Letmein Prog Spec

/-! ## Only ports that are named in the file -/

theorem run_replies {conf : Config} {op : FwdOp} {reply : Option FwMessage} : ∀ (ops : List FwdOp) (s : FwdState),
    (op, reply) ∈ (fwdRun conf s ops).1 → ∃ s', (fwdStep conf s' op).1 = reply := by
  intro ops
  induction ops with
  | nil => intro s h; cases h
  | cons o ops ih =>
    intro s h
    simp only [fwdRun, List.mem_cons, Prod.mk.injEq] at h
    rcases h with ⟨rfl, rfl⟩ | h
    · exact ⟨s, rfl⟩
    · exact ih _ h

theorem named_ports {o : FwdOpts} {w : FwdWorld} {k : Kernel} {p : FwdProc} (h : fwdMain o w = (k, .ok p)) {n : NftNames} (hn : ChainOf p.setup.conf n)
    (hnd : (p.setup.conf.resources.map (·.1)).Nodup) (evs : List FwdEvent) (hf : LifeFair p.setup n p.life evs) (pkt : Packet)
    (hacc : chainAccepts n (lifeRun p.setup p.life evs).core.kernel pkt = true) :
    toControlPort p.setup.conf pkt ∨ ∃ r res, p.setup.conf.resource r = some res ∧ pkt.dport = res.port := by
  obtain ⟨_, _, _, _, _, _, _, hstart, _⟩ := lifeStart_ok (fwdMain_lifeStart h)
  rw [lifeRun_core] at hacc
  rcases C20_never_unasked p.setup.conf n hn w.kernel w.nftOk p.life.core hstart _ (lifeOps_fair hf) pkt hacc with
    h | ⟨x, hx, addr, q, to, hg, hcov⟩
  · exact .inl h
  · right
    obtain ⟨op, reply⟩ := x
    obtain ⟨s, hs⟩ := run_replies _ _ hx
    simp only [granted] at hg
    split at hg
    · rename_i m now ok r
      split at hg
      · rename_i hack
        split at hg
        · rename_i addr' t port ha hp
          simp only [Option.some.injEq, Prod.mk.injEq] at hg
          obtain ⟨rfl, rfl, rfl⟩ := hg
          obtain ⟨m', a', t', port', e1, _, _, e2, _, _, _, _, ⟨⟨rid, res⟩, hres, hport⟩, _⟩ :=
            C17_only_configured_requests p.setup.conf s (.msg m) now ok (.inr ⟨r, hs, hack⟩)
          cases e1
          rw [hp] at e2
          cases e2
          refine ⟨rid, res, (assocGet_eq_some_iff hnd).2 hres, ?_⟩
          have hc := hcov.2
          rw [hport]
          cases t <;> simp [selection, portCovers] at hc <;> first | exact hc.2 | exact hc
        · cases hg
      · cases hg
    · cases hg

/-- **C113** (ports). letmeinfwd is started from its command line and file. Whoever connects to it and whatever it is asked for: a packet that the configured chain accepts goes to the control port,
or to the port of a resource in the file. -/
theorem C113_named_ports {o : FwdOpts} {w : FwdWorld} (ho : IsOrder w.order) {k : Kernel} {p : FwdProc} (h : fwdMain o w = (k, .ok p))
    {d : Doc} (hd : FileDoc w.file d) {n : NftNames} (hn : DocChain d n) (evs : List FwdEvent) (hf : LifeFair p.setup n p.life evs) (pkt : Packet)
    (hacc : chainAccepts n (lifeRun p.setup p.life evs).core.kernel pkt = true) :
    ToDocControlPort d pkt ∨ ∃ r res, DocResource d r res ∧ pkt.dport = res.port := by
  obtain ⟨c, v⟩ := fwdMain_conf ho h hd
  rcases named_ports h (chainOf_doc (fileDoc_nodup hd) c v hn) c.resourcesNodup evs hf pkt hacc with h | ⟨r, res, h1, h2⟩
  · exact .inl ⟨_, c.port, h⟩
  · exact .inr ⟨r, res, (c.resources.resources _ _).1 h1, h2⟩

/-! ## The shipped files -/

theorem load_at {f64 : F64Secs} {order : IterOrder} {c c' : Config} {path : Str} {file : FileContent} (h : c.load f64 order path file = (.ok (), c'))
    (path' : Str) : c.load f64 order path' file = (.ok (), { c' with path := some path' }) := by
  unfold Config.load at h ⊢
  split at h
  · cases h
  · split at h
    · cases h; rfl
    · rename_i hne
      exact absurd (show c.loadIni f64 order _ = (.ok (), c') from h) (hne _ _)
  · split at h
    · cases h
    · rename_i hv
      cases h
      rw [if_neg hv]

/-- The settings of a freshly installed server. -/
def freshServer : Config :=
  { Config.new .Server with
    debug := true, nftExe := "nft".toList, nftFamily := "inet".toList, nftTable := "filter".toList, nftChainInput := "LETMEIN-INPUT".toList }

/-- The settings of a freshly installed client. -/
def freshClient : Config := { Config.new .Client with debug := true, defaultUser := ⟨1⟩ }

/-- The lines of the shipped server file that are no comments. -/
def serverCore : List String :=
  ["[GENERAL]", "debug = true", "port = 5800", "control-timeout = 5.0", "control-error-policy = always", "seccomp = off",
   "[NFTABLES]", "exe = nft", "family = inet", "table = filter", "chain-input = LETMEIN-INPUT", "timeout = 600", "[KEYS]", "[RESOURCES]"]

/-- The lines of the shipped client file that are no comments. -/
def clientCore : List String :=
  ["[GENERAL]", "debug = true", "port = 5800", "control-timeout = 5.0", "seccomp = off", "[CLIENT]", "default-user = 00000001", "[KEYS]", "[RESOURCES]"]

theorem shippedServer_ok : shippedServer.all lineOk = true := by decide +kernel
theorem shippedServer_core : shippedServer.filter (fun l => !commentLine l) = serverCore := by decide +kernel
theorem shippedClient_ok : shippedClient.all lineOk = true := by decide +kernel
theorem shippedClient_core : shippedClient.filter (fun l => !commentLine l) = clientCore := by decide +kernel

theorem shipped_server_id : (Config.new .Server).load f64Secs id [] (.text (textOf shippedServer)) = (.ok (), { freshServer with path := some [] }) := by
  rw [load_shipped shippedServer_ok shippedServer_core]
  decide +kernel

theorem shipped_client_id : (Config.new .Client).load f64Secs id [] (.text (textOf shippedClient)) = (.ok (), { freshClient with path := some [] }) := by
  rw [load_shipped shippedClient_ok shippedClient_core]
  decide +kernel

theorem same_conf_of {order : IterOrder} (ho : IsOrder order) (path : Str) {c0 c1 : Config} {file : FileContent}
    (h : c0.load f64Secs id [] file = (.ok (), { c1 with path := some [] })) :
    ∃ c, c0.load f64Secs order path file = (.ok (), c) ∧ SameConf c c1 := by
  have h := load_at h path
  obtain ⟨h1, h2⟩ := C37_order_irrelevant f64Secs ho id_order c0 path file
  rw [h] at h1 h2
  exact ⟨(c0.load f64Secs order path file).2, Prod.ext h1 rfl, ⟨h2.variant, h2.debug, h2.port, h2.controlTimeout, h2.controlErrorPolicy, h2.seccomp, h2.keys, h2.resources, h2.defaultUser,
    h2.nftExe, h2.nftFamily, h2.nftTable, h2.nftChainInput, h2.nftTimeout⟩⟩

/-- **C113** (the files). Both shipped files are loaded, in whatever order the maps are iterated; they contain no keys and no resources. -/
theorem C113_loaded {order : IterOrder} (ho : IsOrder order) (path : Str) :
    (∃ c, (Config.new .Server).load f64Secs order path (.text (textOf shippedServer)) = (.ok (), c) ∧ SameConf c freshServer) ∧
    ∃ c, (Config.new .Client).load f64Secs order path (.text (textOf shippedClient)) = (.ok (), c) ∧ SameConf c freshClient := by
  exact ⟨same_conf_of ho path shipped_server_id, same_conf_of ho path shipped_client_id⟩

theorem fresh_server {order : IterOrder} (ho : IsOrder order) {path : Str} {c : Config}
    (h : (Config.new .Server).load f64Secs order path (.text (textOf shippedServer)) = (.ok (), c)) : SameConf c freshServer := by
  obtain ⟨⟨c', h', hs⟩, _⟩ := C113_loaded ho path
  rw [h] at h'
  cases h'
  exact hs

/-- The chain that the shipped file names. -/
def freshNames : NftNames := ⟨.INet, "filter".toList, "LETMEIN-INPUT".toList⟩

/-- **C113** (the firewall). letmeinfwd runs with the shipped file, in whatever surroundings and with whatever options. Whoever connects to it, whatever it is asked and whatever fails: its chain accepts
nothing but TCP to port 5800. -/
theorem C113_firewall {o : FwdOpts} {w : FwdWorld} (ho : IsOrder w.order) (h64 : w.f64 = f64Secs) (hfile : w.file = .text (textOf shippedServer))
    {k : Kernel} {p : FwdProc} (h : fwdMain o w = (k, .ok p)) (evs : List FwdEvent) (hf : LifeFair p.setup freshNames p.life evs) (pkt : Packet)
    (hacc : chainAccepts freshNames (lifeRun p.setup p.life evs).core.kernel pkt = true) : pkt.proto = .tcp ∧ pkt.dport = 5800 := by
  obtain ⟨ids, _, conf, fw, r, _, _, _, hload, _, _, _, rfl⟩ := id (fwdMain_ok h)
  rw [h64, hfile] at hload
  have hs := fresh_server ho hload
  obtain ⟨d, hd⟩ := C54_server_needs_document rfl hload
  have hc := (C54_loaded_is_described ho hd hload).1
  rcases named_ports h (n := freshNames) ⟨hs.nftFamily, hs.nftTable, hs.nftChainInput, by decide, by decide⟩ hc.resourcesNodup evs hf pkt hacc with
    ⟨h1, h2⟩ | ⟨r, res, h1, h2⟩
  · dsimp only at h1 h2
    rw [hs.port] at h1 h2
    rcases h2 with h2 | h2
    · exact ⟨h2.1, h1⟩
    · exact absurd h2.2 (by decide)
  · dsimp only at h1
    rw [hs.resources] at h1
    exact absurd h1 (by simp [freshServer, Config.new, Config.resource, assocGet])

theorem lmMain_load {o : LmOpts} {w : LmWorld} {p : LmProc} (h : lmMain o w = .ok p) :
    (Config.new .Server).load w.f64 w.order o.config w.file = (.ok (), p.conf) := by
  unfold lmMain at h
  simp only [R.bind_eq_ok] at h
  obtain ⟨_, _, _, hload, l, hl, _, hpid, f, hf, st, hst, h⟩ := h
  injection h with h
  subst h
  exact Prod.ext hload rfl

/-- **C113** (letmeind). letmeind runs with the shipped file. Whatever its peers send: it never asks letmeinfwd for anything, and sends nothing but Go-Away. -/
theorem C113_letmeind {o : LmOpts} {w : LmWorld} (ho : IsOrder w.order) (h64 : w.f64 = f64Secs) (hfile : w.file = .text (textOf shippedServer))
    {p : LmProc} (h : lmMain o w = .ok p) (mac : MacFn) (peer : IpAddr) {tr : List Ev} {out : Option (R Unit)}
    (ht : (session mac p.conf peer).Trace tr out) : fwRequests tr = [] ∧ ∀ m ∈ sent tr, m.operation = .GoAway := by
  have hl := lmMain_load h
  rw [h64, hfile] at hl
  have hs := fresh_server ho hl
  have hk : ∀ u, p.conf.key u = none := fun u => (hs.keys u).trans rfl
  constructor
  · refine List.filterMap_eq_nil_iff.2 fun e he => ?_
    cases hq : fwReq e with
    | none => rfl
    | some m =>
      obtain ⟨pre, post, rfl⟩ := List.append_of_mem he
      obtain ⟨_, _, _, _, _, _, _, hf, _⟩ := C08_request_content mac p.conf peer _ out ht pre e post rfl m hq
      have := hf.knockOk.known
      rw [hk] at this
      cases this
  · intro m hm
    obtain ⟨e, he, hse⟩ := List.mem_filterMap.1 hm
    obtain ⟨pre, post, rfl⟩ := List.append_of_mem he
    rcases only_goAway mac p.conf peer _ out ht m pre e post rfl hse with h | ⟨_, _, _, hv⟩
    · exact h
    have := hv.known
    rw [hk] at this
    cases this

/-- **C113** (client). The client is run with the shipped file, with whatever subcommand and options. It sends nothing, and a knock fails. -/
theorem C113_client (o : ClientOpts) (w : ClientWorld) (ho : IsOrder w.order) (h64 : w.f64 = f64Secs) (hfile : w.file = .text (textOf shippedClient)) :
    (∀ a, .net a ∉ (clientMain o w).1) ∧
    ∀ host port user serverPort tcp udp ipv4 ipv6, o.version = false → o.command = some (.knock host port user serverPort tcp udp ipv4 ipv6) →
      (clientMain o w).2 ≠ .ok () := by
  obtain ⟨-, conf, hl, hs⟩ := C113_loaded ho o.config
  have hk : ∀ u, conf.key u = none := fun u => (hs.keys u).trans rfl
  unfold clientMain clientAsyncMain
  rw [h64, hfile, hl]
  dsimp only
  constructor
  · intro a
    split
    · exact List.not_mem_nil
    · split
      · intro h
        rcases List.mem_append.1 h with h | h
        · obtain ⟨_, _, h⟩ := List.mem_map.1 h; cases h
        · unfold clientCommand runKnock at h
          split at h
          · simp [hk] at h
          · split at h <;> simp at h
          · simp at h
      · exact List.not_mem_nil
      · exact List.not_mem_nil
  · intro host port user serverPort tcp udp ipv4 ipv6 hv hc
    rw [hv]
    simp only [Bool.false_eq_true, if_false]
    split
    · simp [clientCommand, hc, runKnock, hk]
    · simp
    · simp

theorem hex_ones : ∀ (n : Nat) {bs : Bytes}, HexPairs (List.replicate (2 * n) 'F') bs → bs = List.replicate n 0xFF
  | 0, _, h => by cases h; rfl
  | n + 1, _, h => by
    rw [show 2 * (n + 1) = 2 * n + 1 + 1 by omega, List.replicate_succ, List.replicate_succ] at h
    cases h with
    | cons ha hb h =>
      rw [hex_ones n h, List.replicate_succ, Option.some.inj (((toDigit_iff (by decide) 'F' _).2 ha).symm.trans (show _ = some 15 by decide)),
        Option.some.inj (((toDigit_iff (by decide) 'F' _).2 hb).symm.trans (show _ = some 15 by decide))]
      rfl

/-- **C113** (example keys). The keys of the examples in the shipped files are no keys: a file that contains one, whichever way spelled, is not loaded. -/
theorem C113_example_keys {f64 : F64Secs} {order : IterOrder} (ho : IsOrder order) (c : Config) (path : Str) {file : FileContent} {d : Doc}
    (hd : FileDoc file d) {n v : Str} (hs : Setting d "KEYS".toList n v) (hv : Trimmed v (List.replicate 64 'F')) :
    (c.load f64 order path file).1 ≠ .ok () := by
  intro h
  have h : c.load f64 order path file = (.ok (), (c.load f64 order path file).2) := Prod.ext h rfl
  obtain ⟨u, k, t, _, ht, hx, hk⟩ := C35_every_key_loaded ho hd h hs
  refine (C35_key_is_written ho hd h hk).2.2 ?_
  rw [trimmed_iff] at ht hv
  rw [← ht, hv] at hx
  exact hex_ones 32 hx

/-! ## The examples in the shipped files -/

/-- The example resources, as in both files. -/
def exampleLines : List (String × ResourceId × Resource) :=
  [("0000001A = port: 2000", ⟨0x1A⟩, ⟨2000, true, false, []⟩),
   ("0000001B = port: 3500", ⟨0x1B⟩, ⟨3500, true, false, []⟩),
   ("0000001C = port: 4500 / users: 00000001, 00000002", ⟨0x1C⟩, ⟨4500, true, false, [⟨1⟩, ⟨2⟩]⟩),
   ("0000001D = port: 5500 / users: 00000001", ⟨0x1D⟩, ⟨5500, true, false, [⟨1⟩]⟩),
   ("0000001E = port: 6500 / tcp,udp", ⟨0x1E⟩, ⟨6500, true, true, []⟩)]

/-- A file with the comment sign removed in front of chosen lines. -/
def uncommented (chosen : List String) (file : List String) : List String :=
  file.map fun l => if chosen.any fun c => l == "#" ++ c then (l.drop 1).toString else l

/-- The example resources. -/
def exampleResources : List (ResourceId × Resource) := exampleLines.map (·.2)

theorem examples_server : (Config.new .Server).load f64Secs id [] (.text (textOf (serverCore ++ exampleLines.map (·.1)))) =
    (.ok (), { { freshServer with resources := exampleResources } with path := some [] }) := by decide +kernel

theorem examples_client : (Config.new .Client).load f64Secs id [] (.text (textOf (clientCore ++ exampleLines.map (·.1)))) =
    (.ok (), { { freshClient with resources := exampleResources } with path := some [] }) := by decide +kernel

theorem examples_server_lines : (uncommented (exampleLines.map (·.1)) shippedServer).all lineOk = true ∧
    (uncommented (exampleLines.map (·.1)) shippedServer).filter (fun l => !commentLine l) = serverCore ++ exampleLines.map (·.1) := by decide +kernel

theorem examples_client_lines : (uncommented (exampleLines.map (·.1)) shippedClient).all lineOk = true ∧
    (uncommented (exampleLines.map (·.1)) shippedClient).filter (fun l => !commentLine l) = clientCore ++ exampleLines.map (·.1) := by decide +kernel

/-- **C113** (examples). The comment sign is removed in front of the example resources of both files: the files are loaded, and letmeind and the client then have exactly these resources, the same on
both sides. -/
theorem C113_examples {order : IterOrder} (ho : IsOrder order) (path : Str) :
    (∃ c, (Config.new .Server).load f64Secs order path (.text (textOf (uncommented (exampleLines.map (·.1)) shippedServer))) = (.ok (), c) ∧
      SameConf c { freshServer with resources := exampleResources }) ∧
    ∃ c, (Config.new .Client).load f64Secs order path (.text (textOf (uncommented (exampleLines.map (·.1)) shippedClient))) = (.ok (), c) ∧
      SameConf c { freshClient with resources := exampleResources } := by
  exact ⟨same_conf_of ho path ((load_shipped examples_server_lines.1 examples_server_lines.2).trans examples_server),
    same_conf_of ho path ((load_shipped examples_client_lines.1 examples_client_lines.2).trans examples_client)⟩

/-! ## The hypotheses can be met -/

theorem fwdMain_file {o : FwdOpts} {w : FwdWorld} {f1 f2 : FileContent}
    (h : (Config.new .Server).load w.f64 w.order o.config f1 = (Config.new .Server).load w.f64 w.order o.config f2) :
    fwdMain o { w with file := f1 } = fwdMain o { w with file := f2 } := by
  unfold fwdMain
  dsimp only
  rw [h]
  rfl

theorem lmMain_file {o : LmOpts} {w : LmWorld} {f1 f2 : FileContent}
    (h : (Config.new .Server).load w.f64 w.order o.config f1 = (Config.new .Server).load w.f64 w.order o.config f2) :
    lmMain o { w with file := f1 } = lmMain o { w with file := f2 } := by
  unfold lmMain
  dsimp only
  rw [h]

theorem shipped_core (order : IterOrder) (path : Str) :
    (Config.new .Server).load f64Secs order path (.text (textOf shippedServer)) = (Config.new .Server).load f64Secs order path (.text (textOf serverCore)) :=
  load_shipped shippedServer_ok shippedServer_core

/-- Somebody connects as letmeind and asks for port 22. -/
def freshEvs : List FwdEvent :=
  [.connect lifePeer (some (pidFileText 1234)), .message 0 (.msg (FwMessage.newOpen examplePeer .Tcp 22)) (1 * second) true, .maintain (2 * second) calmEnv]

/-- letmeinfwd's surroundings. -/
def freshWorld : FwdWorld := { e2eFwdWorld with f64 := f64Secs }

/-- Does the chain accept the control port, and not port 22? -/
def freshCheck : Kernel × R FwdProc → Bool
  | (_, .ok p) => chainAccepts freshNames (lifeRun p.setup p.life freshEvs).core.kernel ⟨examplePeer, .tcp, 5800⟩ &&
      !chainAccepts freshNames (lifeRun p.setup p.life freshEvs).core.kernel ⟨examplePeer, .tcp, 22⟩
  | _ => false

theorem fresh_fwd : freshCheck (fwdMain e2eFwdOpts { freshWorld with file := .text (textOf serverCore) }) = true := by decide +kernel

/-- letmeinfwd starts with the shipped file; its chain accepts the control port only, though it is asked to open port 22. -/
example : ∃ k p, fwdMain e2eFwdOpts { freshWorld with file := .text (textOf shippedServer) } = (k, .ok p) ∧
    LifeFair p.setup freshNames p.life freshEvs ∧
    chainAccepts freshNames (lifeRun p.setup p.life freshEvs).core.kernel ⟨examplePeer, .tcp, 5800⟩ = true ∧
    chainAccepts freshNames (lifeRun p.setup p.life freshEvs).core.kernel ⟨examplePeer, .tcp, 22⟩ = false := by
  have h := (congrArg freshCheck (fwdMain_file (o := e2eFwdOpts) (w := freshWorld) (shipped_core _ _))).trans fresh_fwd
  generalize hx : fwdMain e2eFwdOpts { freshWorld with file := .text (textOf shippedServer) } = x at h
  obtain ⟨k, (p | _ | _)⟩ := x
  · simp only [freshCheck, Bool.and_eq_true, Bool.not_eq_true'] at h
    exact ⟨k, p, rfl, ⟨trivial, trivial, ⟨fun _ => ⟨rfl, Nat.le_refl _⟩, fun _ => ⟨rfl, Nat.le_refl _⟩⟩, trivial⟩, h.1, h.2⟩
  · cases h
  · cases h

/-- Is the Knock of `exampleKnock` answered with Go-Away? -/
def freshAnswer : R LmProc → Bool
  | .ok q => (sent (play (session toyMac q.conf examplePeer) [.recv (.msg exampleKnock), .r8 (some goodSalt), .bool true]).1).map (·.operation) == [.GoAway]
  | _ => false

/-- letmeind's surroundings. -/
def freshLmWorld : LmWorld := { e2eLmWorld with f64 := f64Secs }

theorem fresh_lm : freshAnswer (lmMain e2eLmOpts { freshLmWorld with file := .text (textOf serverCore) }) = true := by decide +kernel

/-- letmeind starts with the shipped file, is sent a Knock, and answers with Go-Away. -/
example : ∃ q, lmMain e2eLmOpts { freshLmWorld with file := .text (textOf shippedServer) } = .ok q ∧
    ∃ tr o, (session toyMac q.conf examplePeer).Trace tr o ∧ (sent tr).map (·.operation) = [.GoAway] := by
  have h := (congrArg freshAnswer (lmMain_file (o := e2eLmOpts) (w := freshLmWorld) (shipped_core _ _))).trans fresh_lm
  generalize hx : lmMain e2eLmOpts { freshLmWorld with file := .text (textOf shippedServer) } = x at h
  obtain (q | _ | _) := x
  · exact ⟨q, rfl, _, _, play_trace _ _, beq_iff_eq.1 h⟩
  · cases h
  · cases h

/-- A file with one of the example keys. -/
example : ∃ d n v, FileDoc (.text "[KEYS]\n00000001 = FFFFFFFFFFFFFFFFFFFFFFFFFFFFFFFFFFFFFFFFFFFFFFFFFFFFFFFFFFFFFFFF\n".toList) d ∧
    Setting d "KEYS".toList n v ∧ Trimmed v (List.replicate 64 'F') := by
  have h : (match Ini.newFromFile (.text "[KEYS]\n00000001 = FFFFFFFFFFFFFFFFFFFFFFFFFFFFFFFFFFFFFFFFFFFFFFFFFFFFFFFFFFFFFFFF\n".toList) with
      | .ok ini => ini.get "KEYS".toList "00000001".toList == some (' ' :: List.replicate 64 'F')
      | _ => false) = true := by decide +kernel
  split at h
  · rename_i ini hi
    obtain ⟨d, hd, hr⟩ := newFromFile_ok hi
    exact ⟨d, _, _, hd, hr.setting.1 (beq_iff_eq.1 h), trimmed_iff.2 (by decide +kernel)⟩
  · cases h

end Letmein.Props
