import Verif.Lemmas.Knock
import Verif.Props.Conf
import Verif.Props.Client

/-!
# Properties C38, C44, C45: the client's options, name resolution and knock command
-/

namespace Letmein.Props

open Letmein Prog Spec

/-! ## C38: the control port -/

/-- The control port is enabled for some protocol. -/
def PortEnabled (c : Config) : Prop := c.port.tcp = true ∨ c.port.udp = true

/-- C38: the control port of a configuration loaded from a well-formed file is enabled for TCP or UDP. -/
theorem C38_loaded_port_enabled {f64 : F64Secs} {order : IterOrder} (ho : IsOrder order) {c c' : Config} {path : Str} {file : FileContent} {d : Doc}
    (hd : FileDoc file d) (h : c.load f64 order path file = (.ok (), c')) : PortEnabled c' := by
  have := (C54_loaded_is_described ho hd h).1.port
  rcases this with ⟨v, -, items, -, -, -, h1, h2⟩ | ⟨-, h1⟩
  · by_cases hu : HasWord items "udp"
    · exact .inr (h2.2 hu)
    · exact .inl (h1.2 (.inr hu))
  · left; rw [h1]

/-- C38: loading, whatever the outcome and whatever the file, keeps the control port enabled; it is so in the beginning. -/
theorem C38_port_enabled_invariant {f64 : F64Secs} {order : IterOrder} (ho : IsOrder order) (path : Str) (file : FileContent) :
    (∀ variant, PortEnabled (Config.new variant)) ∧ ∀ c, PortEnabled c → PortEnabled (c.load f64 order path file).2 := by
  refine ⟨fun v => .inl rfl, ?_⟩
  intro c hc
  obtain ⟨h1, h2⟩ := C33_failure_changes_nothing f64 order c path file
  by_cases hl : (c.load f64 order path file).1 = .ok ()
  · have h : c.load f64 order path file = (.ok (), (c.load f64 order path file).2) := by rw [← hl]
    by_cases hd : ∃ d, FileDoc file d
    · obtain ⟨d, hd⟩ := hd
      exact C38_loaded_port_enabled ho hd h
    · rw [load_ok_iff] at h
      rcases h with ⟨ini, c1, h3, -⟩ | ⟨-, -, h3⟩
      · obtain ⟨d, h4, -⟩ := newFromFile_ok h3
        exact absurd ⟨d, h4⟩ hd
      · rw [h3]; exact hc
  · rw [h2 hl]; exact hc

/-- C38: for all command line options, exactly one protocol is used: TCP if enforced or configured, unless UDP is enforced. -/
theorem C38_exactly_one_protocol {conf : Config} (hp : PortEnabled conf) (server : KnockServer) :
    ((server.toControlPort conf).tcp = true ↔ ByTcp server conf) ∧ ((server.toControlPort conf).udp = true ↔ ¬ ByTcp server conf) ∧
      ServerPort server conf (server.toControlPort conf).port :=
  toControlPort_spec hp server

/-- C38: the assertions of the client's constructor never fail. -/
theorem C38_client_never_panics {conf : Config} (hp : PortEnabled conf) (server : KnockServer) (parseIp : ParseIp) (dns : Dns) (opens : Opens)
    (cfg : ResConf) : (clientNew parseIp dns opens server.addr (server.toControlPort conf) cfg).2 ≠ .panic := by
  rcases clientNew_spec hp server parseIp dns opens cfg with ⟨a, act, -, -, h⟩ | ⟨-, h⟩ <;> rw [h]
  · simp only; split <;> simp
  · simp

/-- The hypothesis is needed: without any protocol the assertion fails. -/
example : (clientNew (fun _ => some (.v4 ⟨[1, 2, 3, 4], rfl⟩)) (fun _ => none) (fun _ => true) [] { port := 1, tcp := false, udp := false }
    ⟨.Ipv4, ⟨true, true, true, true⟩, ⟨true, true, true⟩⟩).2 = .panic := by decide

/-- The example configuration has both protocols; TCP is preferred, the options prevail. -/
example : PortEnabled exampleLoaded ∧
    (KnockServer.mk [] .Ipv4 none false false).toControlPort exampleLoaded = { port := 5800, tcp := true, udp := false } ∧
    (KnockServer.mk [] .Ipv4 (some 7) false true).toControlPort exampleLoaded = { port := 7, tcp := false, udp := true } ∧
    (KnockServer.mk [] .Ipv4 none true true).toControlPort exampleLoaded = { port := 5800, tcp := true, udp := false } :=
  ⟨.inl rfl, by decide, by decide, by decide⟩

/-! ## C44: name resolution -/

/-- C44: the options of the command line mean what is documented. -/
theorem C44_options (s : Str) :
    (∀ srv, parseDns s = .ok srv ↔ DnsText s srv) ∧ (∀ crypt, parseDnsCrypt s = .ok crypt ↔ DnsCryptText s crypt) :=
  ⟨fun _ => parseDns_iff, fun _ => parseDnsCrypt_iff⟩

example : parseDns "System , QUAD9".toList = .ok ⟨true, true, false, false⟩ ∧ parseDns "system,".toList = .err ∧
    parseDnsCrypt "tls".toList = .ok ⟨true, false, false⟩ := by decide +kernel

/-- C44: every address found is of the wanted family. -/
theorem C44_family {parseIp : ParseIp} {dns : Dns} {host : Str} {cfg : ResConf} {a : IpAddr} (h : (resolve parseIp dns host cfg).2 = .ok a) :
    InFamily cfg.mode a := resolve_family h

/-- C44: an address literal is used as it is, without any query; it is an error if it is of the wrong family. -/
theorem C44_literal {parseIp : ParseIp} {host : Str} {a : IpAddr} (h : parseIp host = some a) (dns : Dns) (cfg : ResConf) :
    (resolve parseIp dns host cfg).1 = [] ∧ (InFamily cfg.mode a → (resolve parseIp dns host cfg).2 = .ok a) ∧
      (¬ InFamily cfg.mode a → (resolve parseIp dns host cfg).2 = .err) := by
  rcases resolve_literal (dns := dns) (cfg := cfg) h with ⟨hf, e⟩ | ⟨hf, e⟩ <;> rw [e] <;> simp [hf]

/-- C44: only allowed lookups are made, in the documented order, each at most once; each but the last failed; no allowed lookup is left out
before the last one; the result is the first address of the family in the answer to the last one; if all fail then all allowed ones were tried. -/
theorem C44_queries {parseIp : ParseIp} {host : Str} (h : parseIp host = none) (dns : Dns) (cfg : ResConf) :
    (∀ q ∈ (resolve parseIp dns host cfg).1, MayAsk cfg host q) ∧
    (resolve parseIp dns host cfg).1.Pairwise Before ∧
    (((resolve parseIp dns host cfg).2 = .err ∧ (∀ q, MayAsk cfg host q → q ∈ (resolve parseIp dns host cfg).1) ∧
        ∀ q ∈ (resolve parseIp dns host cfg).1, dns q = none) ∨
      ∃ pre q l, (resolve parseIp dns host cfg).1 = pre ++ [q] ∧ (∀ q' ∈ pre, dns q' = none) ∧ dns q = some l ∧
        (∀ q', MayAsk cfg host q' → q' ∈ pre ++ [q] ∨ Before q q') ∧
        (∀ a, (resolve parseIp dns host cfg).2 = .ok a ↔ FirstAddr cfg.mode l a) ∧ (resolve parseIp dns host cfg).2 ≠ .panic) := by
  have hs := candidates_sorted host cfg
  have hm := mem_candidates host cfg
  refine ⟨fun q hq => (resolve_queries hq).2, ?_⟩
  rw [resolve_eq h]
  rcases askAll_spec dns cfg.mode (candidates host cfg) with ⟨h1, h2, h3⟩ | ⟨pre, q, post, l, h1, h2, h3, h4, h5⟩
  · exact ⟨by rw [h1]; exact hs, .inl ⟨h2, fun q hq => by rw [h1, hm]; exact hq, h3⟩⟩
  · rw [h1] at hs
    refine ⟨?_, .inr ⟨pre, q, l, h2, h3, h4, ?_, fun a => by rw [h5, getFirstResult_iff], by rw [h5]; exact getFirstResult_not_panic⟩⟩
    · rw [h2]
      refine hs.sublist ?_
      exact (List.Sublist.refl pre).append (List.Sublist.cons_cons _ (List.nil_sublist _))
    · intro q' hq'
      rw [← hm, h1] at hq'
      rcases List.mem_append.1 hq' with hq' | hq'
      · left; simp [hq']
      · rcases List.mem_cons.1 hq' with rfl | hq'
        · left; simp
        · right
          have := (List.pairwise_append.1 hs).2.1
          exact (List.pairwise_cons.1 this).1 q' hq'

/-- The system fails, Quad9 by TLS is not allowed, Google by TLS answers with a mixture of records. -/
example : resolve (fun _ => none) (fun q => if q.service = .google then some [.other, .A ⟨[1, 2, 3, 4], rfl⟩, .A ⟨[9, 9, 9, 9], rfl⟩] else none) "h".toList
      ⟨.Ipv4, ⟨true, false, true, true⟩, ⟨true, false, true⟩⟩ =
    ([⟨.system, .system, "h".toList, .A⟩, ⟨.google, .tls, "h".toList, .A⟩], .ok (.v4 ⟨[1, 2, 3, 4], rfl⟩)) := by decide +kernel

/-- C44: with `--dns-crypt tls,https` no unencrypted query is made to a DNS service; without `system` in `--dns` the system is not asked. -/
theorem C44_policy {parseIp : ParseIp} {dns : Dns} {host dnsOpt cryptOpt : Str} {m : ResMode} {srv : ResSrv} {crypt : ResCrypt}
    (h1 : parseDns dnsOpt = .ok srv) (h2 : parseDnsCrypt cryptOpt = .ok crypt) :
    ∀ q ∈ (resolve parseIp dns host ⟨m, srv, crypt⟩).1,
      (q.service = .system → ListsWord dnsOpt "system") ∧ (q.service = .quad9 → ListsWord dnsOpt "quad9") ∧
      (q.service = .google → ListsWord dnsOpt "google") ∧ (q.service = .cloudflare → ListsWord dnsOpt "cloudflare") ∧
      (q.transport = .system ↔ q.service = .system) ∧
      (q.transport = .tls → ListsWord cryptOpt "tls") ∧ (q.transport = .https → ListsWord cryptOpt "https") ∧
      (q.transport = .plain → ListsWord cryptOpt "unencrypted") := by
  intro q hq
  rw [parseDns_iff] at h1
  rw [parseDnsCrypt_iff] at h2
  obtain ⟨-, hs, ht, -, -⟩ := resolve_queries hq
  obtain ⟨-, a1, a2, a3, a4⟩ := h1
  obtain ⟨-, b1, b2, b3⟩ := h2
  obtain ⟨s, t, hh, r⟩ := q
  cases s <;> cases t <;> simp_all [ServiceEnabled, TransportEnabled]

/-! ## C45: the knock command -/

/-- What the exchange of messages over a connection can result in: a run of the client's side of the protocol. -/
def IsExchange (mac : MacFn) (exchange : UserId → ResourceId → Key → NetAct → R Unit) : Prop :=
  ∀ u r k act, ∃ tr, (knockSequence mac u r k).Trace (⟨.connect, true⟩ :: tr) (some (exchange u r k act))

/-- C45: without a key for the user, or without a resource with this port that the user may use, nothing is sent. -/
theorem C45_nothing_without_key_and_resource (parseIp : ParseIp) (dns : Dns) (opens : Opens) (exchange : UserId → ResourceId → Key → NetAct → R Unit)
    (conf : Config) (server : KnockServer) (port : UInt16) (user : Option UserId) (srv : ResSrv) (crypt : ResCrypt) (u : UserId)
    (hu : user = some u ∨ (user = none ∧ conf.defaultUser = u))
    (h : conf.key u = none ∨ ∀ id r, (id, r) ∈ conf.resources → r.port = port → r.containsUser u = false) :
    runKnock parseIp dns opens exchange conf server port user srv crypt = ([], .err) := by
  have e : user.getD conf.defaultUser = u := by
    rcases hu with rfl | ⟨rfl, h⟩
    · rfl
    · exact h
  unfold runKnock
  simp only [e]
  rcases h with h | h
  · rw [h]
  · cases hk : conf.key u with
    | none => rfl
    | some k =>
      simp only
      cases hr : conf.resourceIdByPort port (some u) with
      | none => rfl
      | some id =>
        obtain ⟨r, h1, h2, h3⟩ := resourceIdByPort_sound hr
        have := h id r h1 h2
        rw [h3 u rfl] at this; cases this

/-- C45: which families are knocked, and when the command succeeds. `acts` is what happens on the network; the exchange of messages is done for
the user, with their key, for a resource of this port that they may use. It is assumed
not to panic: by `C13_verdict` it does so only if the operating system's random number generator fails. -/
theorem C45_families_and_verdict (parseIp : ParseIp) (dns : Dns) (opens : Opens)
    {exchange : UserId → ResourceId → Key → NetAct → R Unit} {conf : Config} (hp : PortEnabled conf) (addr : Str) (ipv4 ipv6 : Bool) (sp : Option UInt16)
    (st su : Bool) (port : UInt16) (user : Option UserId) (srv : ResSrv) (crypt : ResCrypt) {u : UserId} {k : Key} {id : ResourceId}
    (hu : user = some u ∨ (user = none ∧ conf.defaultUser = u)) (hk : conf.key u = some k) (hid : conf.resourceIdByPort port (some u) = some id)
    (hrand : ∀ act, exchange u id k act ≠ .panic) :
    let server : KnockServer := ⟨addr, AddrMode.ofFlags ipv4 ipv6, sp, st, su⟩
    let out := runKnock parseIp dns opens exchange conf server port user srv crypt
    let Ok := KnockedOk server conf opens (exchange u id k) out.1
    let All := fun m => ∀ act ∈ out.1, OfFamily server conf m act
    let Tried := fun m => ∀ a, (resolve parseIp dns addr ⟨m, srv, crypt⟩).2 = .ok a → ∃ act ∈ out.1, Connection server conf a act
    -- only one option: only this family
    (ipv4 = true → ipv6 = false → All .Ipv4 ∧ Tried .Ipv4 ∧ (out.2 = .ok () ↔ Ok .Ipv4)) ∧
    (ipv4 = false → ipv6 = true → All .Ipv6 ∧ Tried .Ipv6 ∧ (out.2 = .ok () ↔ Ok .Ipv6)) ∧
    -- both options: both must succeed
    (ipv4 = true → ipv6 = true → (out.2 = .ok () ↔ Ok .Ipv6 ∧ Ok .Ipv4) ∧ (out.2 = .ok () → Tried .Ipv6 ∧ Tried .Ipv4)) ∧
    -- no option, host name: both are tried, one is enough
    (ipv4 = false → ipv6 = false → parseIp addr = none → Tried .Ipv6 ∧ Tried .Ipv4 ∧ (out.2 = .ok () ↔ Ok .Ipv6 ∨ Ok .Ipv4)) ∧
    -- an address literal: only this address, and without option one knock in its own family decides
    (∀ a, parseIp addr = some a → (∀ act ∈ out.1, Connection server conf a act) ∧
      (ipv4 = false → ipv6 = false → ∀ m, InFamily m a → Tried m ∧ (out.2 = .ok () ↔ Ok m))) ∧
    -- never a panic
    out.2 ≠ .panic := by
  intro server out Ok All Tried
  have e : user.getD conf.defaultUser = u := by
    rcases hu with rfl | ⟨rfl, h⟩
    · rfl
    · exact h
  let knock := knockOnce parseIp dns opens (exchange u id k) server.addr (server.toControlPort conf) srv crypt
  have hout : out = knockFamilies parseIp addr (AddrMode.ofFlags ipv4 ipv6) knock := by
    show runKnock parseIp dns opens exchange conf server port user srv crypt = _
    unfold runKnock
    simp only [e, hk, hid]
    rfl
  have f6 : KnockFacts server conf parseIp dns opens (exchange u id k) srv crypt .Ipv6 (knock .Ipv6).1 (knock .Ipv6).2 :=
    knockOnce_facts hp server parseIp dns opens (exchange u id k) srv crypt .Ipv6
  have f4 : KnockFacts server conf parseIp dns opens (exchange u id k) srv crypt .Ipv4 (knock .Ipv4).1 (knock .Ipv4).2 :=
    knockOnce_facts hp server parseIp dns opens (exchange u id k) srv crypt .Ipv4
  have np : ∀ m, (knock m).2 ≠ .panic := by
    intro m hm
    cases m with
    | Ipv6 => obtain ⟨act, -, h⟩ := f6.panic hm; exact hrand act h
    | Ipv4 => obtain ⟨act, -, h⟩ := f4.panic hm; exact hrand act h
  -- actions of one family never make up success in the other
  have sep : ∀ {m m' : ResMode} {acts acts' : List NetAct}, m ≠ m' → (∀ act ∈ acts', OfFamily server conf m' act) →
      (KnockedOk server conf opens (exchange u id k) (acts ++ acts') m ↔ KnockedOk server conf opens (exchange u id k) acts m) := by
    intro m m' acts acts' hne hfam
    constructor
    · rintro ⟨act, hact, a, h1, h2, h3⟩
      rcases List.mem_append.1 hact with hact | hact
      · exact ⟨act, hact, a, h1, h2, h3⟩
      · exfalso
        have := hfam act hact
        cases act with
        | dns q => exact connection_not_dns h2
        | tcp x y => obtain ⟨b, h4, h5⟩ := this; rw [connection_unique h2 h5] at h1; exact hne (inFamily_unique h1 h4)
        | udp x y => obtain ⟨b, h4, h5⟩ := this; rw [connection_unique h2 h5] at h1; exact hne (inFamily_unique h1 h4)
    · rintro ⟨act, hact, h⟩; exact ⟨act, List.mem_append.2 (.inl hact), h⟩
  have sep' : ∀ {m m' : ResMode} {acts acts' : List NetAct}, m ≠ m' → (∀ act ∈ acts', OfFamily server conf m' act) →
      (KnockedOk server conf opens (exchange u id k) (acts' ++ acts) m ↔ KnockedOk server conf opens (exchange u id k) acts m) := by
    intro m m' acts acts' hne hfam
    refine Iff.trans ?_ (sep (acts := acts) hne hfam)
    simp only [KnockedOk, List.mem_append, or_comm]
  refine ⟨?_, ?_, ?_, ?_, ?_, ?_⟩
  · rintro rfl rfl
    have : out = knock .Ipv4 := hout
    refine ⟨?_, ?_, ?_⟩
    · intro act ha; rw [this] at ha; exact f4.family act ha
    · intro a ha; rw [this]; exact f4.connects a ha
    · simp only [Ok, this]; exact f4.ok
  · rintro rfl rfl
    have : out = knock .Ipv6 := hout
    refine ⟨?_, ?_, ?_⟩
    · intro act ha; rw [this] at ha; exact f6.family act ha
    · intro a ha; rw [this]; exact f6.connects a ha
    · simp only [Ok, this]; exact f6.ok
  · rintro rfl rfl
    simp only [AddrMode.ofFlags, knockFamilies] at hout
    cases h6 : (knock .Ipv6) with
    | mk a6 r6 =>
    rw [h6] at f6 hout
    cases r6 with
    | ok _ =>
      simp only at hout
      refine ⟨?_, ?_⟩
      · simp only [Ok, hout]
        rw [sep (by decide) f4.family, sep' (by decide) f6.family, f4.ok]
        exact ⟨fun h => ⟨f6.ok.1 rfl, h⟩, fun h => h.2⟩
      · intro _
        refine ⟨?_, ?_⟩
        · intro a ha
          obtain ⟨act, h1, h2⟩ := f6.connects a ha
          exact ⟨act, by rw [hout]; exact List.mem_append.2 (.inl h1), h2⟩
        · intro a ha
          obtain ⟨act, h1, h2⟩ := f4.connects a ha
          exact ⟨act, by rw [hout]; exact List.mem_append.2 (.inr h1), h2⟩
    | err =>
      simp only at hout
      have hno : ¬ Ok .Ipv6 := by
        intro h; simp only [Ok, hout] at h
        have := f6.ok.2 h; cases this
      rw [hout]
      simp only [reduceCtorEq, false_iff, false_implies, and_true]
      exact fun h => hno h.1
    | panic => exact absurd (by rw [h6]) (np .Ipv6)
  · rintro rfl rfl hl
    simp only [AddrMode.ofFlags, knockFamilies, isIpv4Addr, isIpv6Addr, hl, Option.map_none, Option.getD_none, Bool.false_eq_true, if_false] at hout
    have hout' : out = ((knock .Ipv6).1 ++ (knock .Ipv4).1, if (knock .Ipv6).2 = .err ∧ (knock .Ipv4).2 = .err then .err else .ok ()) := by
      rw [hout]
      cases h6 : (knock .Ipv6) with
      | mk a6 r6 =>
      cases h4 : (knock .Ipv4) with
      | mk a4 r4 =>
      cases r6 with
      | panic => exact absurd (by rw [h6]) (np .Ipv6)
      | ok x => cases r4 with
        | panic => exact absurd (by rw [h4]) (np .Ipv4)
        | ok _ => rfl
        | err => rfl
      | err => cases r4 with
        | panic => exact absurd (by rw [h4]) (np .Ipv4)
        | ok _ => rfl
        | err => rfl
    refine ⟨?_, ?_, ?_⟩
    · intro a ha
      obtain ⟨act, h1, h2⟩ := f6.connects a ha
      exact ⟨act, by rw [hout']; exact List.mem_append.2 (.inl h1), h2⟩
    · intro a ha
      obtain ⟨act, h1, h2⟩ := f4.connects a ha
      exact ⟨act, by rw [hout']; exact List.mem_append.2 (.inr h1), h2⟩
    · simp only [Ok, hout']
      rw [sep (by decide) f4.family, sep' (by decide) f6.family, ← f4.ok, ← f6.ok]
      have n6 := np .Ipv6
      have n4 := np .Ipv4
      cases h6 : (knock .Ipv6).2 <;> cases h4 : (knock .Ipv4).2 <;> simp_all
  · intro a hl
    refine ⟨?_, ?_⟩
    · have h6 := f6.literal a hl
      have h4 := f4.literal a hl
      intro act hact
      rw [hout] at hact
      unfold knockFamilies at hact
      cases hm : AddrMode.ofFlags ipv4 ipv6 with
      | Ipv4 => rw [hm] at hact; exact h4 act hact
      | Ipv6 => rw [hm] at hact; exact h6 act hact
      | Both =>
        rw [hm] at hact
        simp only at hact
        cases hk6 : knock .Ipv6 with
        | mk a6 r6 =>
        rw [hk6] at hact h6
        cases r6 with
        | ok _ =>
          simp only at hact
          rcases List.mem_append.1 hact with hact | hact
          · exact h6 act hact
          · exact h4 act hact
        | err => exact h6 act hact
        | panic => exact h6 act hact
      | TryBoth =>
        rw [hm] at hact
        simp only [isIpv4Addr, isIpv6Addr, hl, Option.map_some, Option.getD_some] at hact
        cases a with
        | v4 x => simp only [IpAddr.isIpv4, if_true] at hact; exact h4 act hact
        | v6 x => simp only [IpAddr.isIpv4, IpAddr.isIpv6, if_true, Bool.false_eq_true, if_false] at hact; exact h6 act hact
    · rintro rfl rfl m hm
      simp only [AddrMode.ofFlags, knockFamilies, isIpv4Addr, isIpv6Addr, hl, Option.map_some, Option.getD_some] at hout
      cases hm with
      | v4 x =>
        simp only [IpAddr.isIpv4, if_true] at hout
        exact ⟨fun b hb => by rw [hout]; exact f4.connects b hb, by simp only [Ok, hout]; exact f4.ok⟩
      | v6 x =>
        simp only [IpAddr.isIpv4, IpAddr.isIpv6, if_true, Bool.false_eq_true, if_false] at hout
        exact ⟨fun b hb => by rw [hout]; exact f6.connects b hb, by simp only [Ok, hout]; exact f6.ok⟩
  · rw [hout]
    have n6 := np .Ipv6
    have n4 := np .Ipv4
    unfold knockFamilies
    cases AddrMode.ofFlags ipv4 ipv6 with
    | Ipv4 => exact n4
    | Ipv6 => exact n6
    | Both =>
      simp only
      cases hk6 : knock .Ipv6 with
      | mk a6 r6 =>
      rw [hk6] at n6
      cases r6 <;> simp_all
    | TryBoth =>
      simp only
      split
      · exact n4
      · split
        · exact n6
        · cases hk6 : knock .Ipv6 with
          | mk a6 r6 =>
          cases hk4 : knock .Ipv4 with
          | mk a4 r4 =>
          rw [hk6] at n6; rw [hk4] at n4
          cases r6 <;> cases r4 <;> simp_all

/-- Names resolve to one address of each family; the knock by IPv6 is answered, the one by IPv4 is not. -/
def knockCommand (addr : String) (ipv4 ipv6 : Bool) : List NetAct × R Unit :=
  runKnock (fun s => if s = "::1".toList then some (.v6 (Arr.replicate 16 0)) else none)
    (fun q => if q.record = .A then some [.A ⟨[1, 2, 3, 4], rfl⟩] else some [.AAAA (Arr.replicate 16 9)]) (fun _ => true)
    (fun _ _ _ act => match act with | .tcp (.v6 _) _ => .ok () | _ => .err) exampleLoaded ⟨addr.toList, AddrMode.ofFlags ipv4 ipv6, none, false, false⟩ 22
    (some ⟨0xA1⟩) ⟨true, false, false, false⟩ ⟨false, false, false⟩

example : PortEnabled exampleLoaded ∧ exampleLoaded.key ⟨0xA1⟩ = some exampleKey ∧ exampleLoaded.resourceIdByPort 22 (some ⟨0xA1⟩) = some ⟨7⟩ :=
  ⟨.inl rfl, by decide, by decide⟩
example : knockCommand "host" false false =
    ([.dns ⟨.system, .system, "host".toList, .AAAA⟩, .tcp (.v6 (Arr.replicate 16 9)) 5800, .dns ⟨.system, .system, "host".toList, .A⟩,
      .tcp (.v4 ⟨[1, 2, 3, 4], rfl⟩) 5800], .ok ()) := by decide +kernel
example : (knockCommand "host" true true).2 = .err ∧ (knockCommand "host" true false).2 = .err ∧ (knockCommand "host" false true).2 = .ok () := by
  decide +kernel
example : knockCommand "::1" false false = ([.tcp (.v6 (Arr.replicate 16 0)) 5800], .ok ()) ∧ knockCommand "::1" true true = ([.tcp (.v6 (Arr.replicate 16 0)) 5800], .err) ∧
    knockCommand "::1" true false = ([], .err) := by
  decide +kernel

/-- C45: if the command succeeds, then over some connection that it opened the client received ComeIn as the answer to a Response with the user's key. -/
theorem C45_success_means_comein {mac : MacFn} {server : KnockServer} {conf : Config} {opens : Opens}
    {exchange : UserId → ResourceId → Key → NetAct → R Unit} {u : UserId} {k : Key} {id : ResourceId} (hx : IsExchange mac exchange) {acts : List NetAct}
    {m : ResMode} (h : KnockedOk server conf opens (exchange u id k) acts m) :
    ∃ act ∈ acts, opens act = true ∧ ∃ tr ch resp ci, (knockSequence mac u id k).Trace tr (some (.ok ())) ∧ ch.operation = .Challenge ∧
      IsResponseOf mac u id k ch.auth resp ∧ ci.operation = .ComeIn ∧ received tr = [ch, ci] := by
  obtain ⟨act, h1, a, -, -, h2, h3⟩ := h
  obtain ⟨tr, ht⟩ := hx u id k act
  rw [h3] at ht
  obtain ⟨knock, ch, resp, ci, -, h5, h6, h7, -, h9, -⟩ := C13_success mac u id k _ ht
  exact ⟨act, h1, h2, _, ch, resp, ci, ht, h5, h6, h7, h9⟩

end Letmein.Props
