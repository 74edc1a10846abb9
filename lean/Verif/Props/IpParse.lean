import Verif.Lemmas.IpParse
import Verif.Props.Knock

/-!
# Property C89: address literals
-/

namespace Letmein.Props

open Letmein Prog Spec

/-- C89: the texts taken as an address are exactly the literals of RFC 4291 without superfluous zeros in dotted numbers, and they are taken as the
address they denote. -/
theorem C89_meaning (s : Str) (a : IpAddr) : parseIpAddr s = some a ↔ Literal s a := parseIpAddr_iff

/-- Different forms of one address, an embedded IPv4 address, upper case; the whole address may be compressed. -/
example : Literal "2001:DB8::8:800:200C:417A".toList (.v6 ⟨[0x20, 1, 0xD, 0xB8, 0, 0, 0, 0, 0, 8, 8, 0, 0x20, 0xC, 0x41, 0x7A], rfl⟩) ∧
    parseIpAddr "2001:db8:0:0:8:800:200c:417a".toList = parseIpAddr "2001:DB8::8:800:200C:417A".toList ∧
    parseIpAddr "64:ff9b::192.0.2.33".toList = some (.v6 ⟨[0, 0x64, 0xFF, 0x9B, 0, 0, 0, 0, 0, 0, 0, 0, 192, 0, 2, 33], rfl⟩) ∧
    parseIpAddr "1:2:3:4:5:6:7::".toList = some (.v6 ⟨[0, 1, 0, 2, 0, 3, 0, 4, 0, 5, 0, 6, 0, 7, 0, 0], rfl⟩) ∧
    parseIpAddr "::".toList = some (.v6 ⟨List.replicate 16 0, rfl⟩) ∧ parseIpAddr "192.0.2.1".toList = some (.v4 ⟨[192, 0, 2, 1], rfl⟩) := by
  rw [← C89_meaning]; decide +kernel

/-- Not literals: numbers out of range, superfluous zeros, too few or too many numbers or groups, two gaps, a gap for nothing, an IPv4 address in front. -/
example : (∀ s ∈ ["1.2.3.256", "1.2.3.04", "010.0.0.1", "1.2.3", "1.2.3.4.5", "1..2.3", "", "1:2:3:4:5:6:7", "1:2:3:4:5:6:7:8:9", "1::2::3", "12345::",
    "1:2:3:4:5:6:7:8::", "::1:2:3:4:5:6:7:8", "1.2.3.4::", "1:2:3:4:5:6:7:1.2.3.4", ":::", "1:", ":1", "::1.2.3.04", "::1%eth0", "[::1]", "::1 ", " 1.2.3.4", "1.2.3.4\n"],
    parseIpAddr s.toList = none) ∧ ¬ ∃ a, Literal "010.0.0.1".toList a := by
  constructor
  · decide +kernel
  · rintro ⟨a, h⟩
    rw [← C89_meaning] at h
    have : parseIpAddr "010.0.0.1".toList = none := by decide +kernel
    rw [this] at h; cases h

/-- C89: no text denotes two addresses, of the same family or of different ones. -/
theorem C89_unambiguous {s : Str} {a b : IpAddr} (ha : Literal s a) (hb : Literal s b) : a = b := by
  rw [← C89_meaning] at ha hb
  rw [ha] at hb
  injection hb

theorem plainOctets_showIpv4 (a : Arr 4) : PlainOctets (showIpv4 a) := by
  have key : ∀ n, n < 256 → 2 ≤ (showNat n).length → (showNat n).head? ≠ some '0' := by decide +kernel
  obtain ⟨v, hv⟩ := a
  have hne : v.map (fun b => showNat b.toNat) ≠ [] := by
    intro h
    rw [List.map_eq_nil_iff] at h
    rw [h] at hv
    cases hv
  intro p hp
  rw [pieces_eq, showIpv4, splitOn_joinWith hne] at hp
  · obtain ⟨x, -, rfl⟩ := List.mem_map.1 hp
    exact key x.toNat x.toNat_lt
  · intro p hp
    obtain ⟨_, _, rfl⟩ := List.mem_map.1 hp
    exact not_mem_showNat (by simp) _

theorem plainOctets_showIpv6 (a : Arr 16) : ∀ t ∈ pieces ':' (showIpv6 a), '.' ∈ t → PlainOctets t := by
  unfold showIpv6
  cases hm : toIpv4Mapped a with
  | some x =>
    simp only
    have h2 : pieces ':' ("::ffff:".toList ++ showIpv4 x) = [[], [], "ffff".toList, showIpv4 x] := by
      rw [pieces_eq, show "::ffff:".toList ++ showIpv4 x = [] ++ ':' :: ([] ++ ':' :: ("ffff".toList ++ ':' :: showIpv4 x)) from rfl,
        splitOn_append_sep (by simp), splitOn_append_sep (by simp), splitOn_append_sep (by decide), splitOn_of_not_mem (showIpv4_no (by simp) x)]
    rw [h2]
    intro t ht hd
    simp only [List.mem_cons, List.not_mem_nil, or_false] at ht
    rcases ht with rfl | rfl | rfl | rfl
    · cases hd
    · cases hd
    · exact absurd hd (by decide)
    · exact plainOctets_showIpv4 x
  | none =>
    have nodot : ∀ l : List Nat, '.' ∉ joinWith ':' (l.map showHexLower) := by
      intro l
      refine not_mem_joinWith (by decide) ?_
      intro p hp
      obtain ⟨_, _, rfl⟩ := List.mem_map.1 hp
      exact not_mem_showHexLower (by simp) _
    have part : ∀ {s : Str}, '.' ∉ s → ∀ t ∈ pieces ':' s, '.' ∈ t → PlainOctets t := by
      intro s hs t ht hd
      exfalso
      rw [pieces_eq] at ht
      have hj := joinWith_splitOn ':' s
      apply hs
      rw [← hj]
      generalize splitOn ':' s = ps at ht
      induction ps with
      | nil => cases ht
      | cons p ps ih =>
        cases ps with
        | nil =>
          simp only [List.mem_singleton] at ht
          subst ht
          exact hd
        | cons q ps =>
          rw [joinWith]
          rcases List.mem_cons.1 ht with rfl | ht
          · simp [hd]
          · exact List.mem_append.2 (.inr (List.mem_cons.2 (.inr (ih ht))))
    simp only
    split
    · refine part ?_
      simp only [List.mem_append, not_or]
      exact ⟨⟨nodot _, by decide⟩, nodot _⟩
    · exact part (nodot _)

/-- C89: every address printed by the library is read back as the same address. -/
theorem C89_round_trip (a : IpAddr) : parseIpAddr (showIp a) = some a := by
  rw [C89_meaning]
  cases a with
  | v4 a => exact .v4 (readIpv4_showIpv4 a) (plainOctets_showIpv4 a)
  | v6 a => exact .v6 (readIpv6_showIpv6 a) (plainOctets_showIpv6 a)

/-- A mapped address, one with a gap and one without. -/
example : showIp (.v6 ⟨[0, 0, 0, 0, 0, 0, 0, 0, 0, 0, 0xFF, 0xFF, 10, 0, 0, 1], rfl⟩) = "::ffff:10.0.0.1".toList ∧
    parseIpAddr "::ffff:10.0.0.1".toList = some (.v6 ⟨[0, 0, 0, 0, 0, 0, 0, 0, 0, 0, 0xFF, 0xFF, 10, 0, 0, 1], rfl⟩) ∧
    showIp (.v6 ⟨[0xFE, 0x80, 0, 0, 0, 0, 0, 0, 0, 0, 0, 0, 0, 0, 0, 1], rfl⟩) = "fe80::1".toList ∧
    parseIpAddr "fe80::1".toList = some (.v6 ⟨[0xFE, 0x80, 0, 0, 0, 0, 0, 0, 0, 0, 0, 0, 0, 0, 0, 1], rfl⟩) := by decide +kernel

theorem toDigit_mem {c : Char} {d : Nat} (h : toDigit 16 c = some d) : c ∈ "0123456789abcdefABCDEF".toList := by
  by_cases hc : c.toNat < 128
  · have key : ∀ n, n < 128 → (toDigit 16 (Char.ofNat n)).isSome → Char.ofNat n ∈ "0123456789abcdefABCDEF".toList := by decide +kernel
    have := key c.toNat hc
    rw [Char.ofNat_toNat] at this
    exact this (by rw [h]; rfl)
  · rw [toDigit_of_ge (by omega)] at h; cases h

theorem toDigit_ten_mem {c : Char} {d : Nat} (h : toDigit 10 c = some d) : c ∈ "0123456789".toList := by
  by_cases hc : c.toNat < 128
  · have key : ∀ n, n < 128 → (toDigit 10 (Char.ofNat n)).isSome → Char.ofNat n ∈ "0123456789".toList := by decide +kernel
    have := key c.toNat hc
    rw [Char.ofNat_toNat] at this
    exact this (by rw [h]; rfl)
  · rw [toDigit_of_ge (by omega)] at h; cases h

theorem ipv4Text_chars {s : Str} {a : Arr 4} (h : Ipv4Text s a) : ∀ c ∈ s, c = '.' ∨ c ∈ "0123456789".toList := by
  obtain ⟨p, q, r, t, k, l, m, n, rfl, e1, e2, e3, e4, -⟩ := h
  have key : ∀ {p : Str} {n : Nat}, OctetText p n → ∀ c ∈ p, c = '.' ∨ c ∈ "0123456789".toList := by
    intro p n hp c hc
    obtain ⟨d, hd⟩ := digitsValue_all hp.value c hc
    exact .inr (toDigit_ten_mem hd)
  intro c hc
  simp only [List.mem_append, List.mem_cons] at hc
  rcases hc with hc | rfl | hc | rfl | hc | rfl | hc
  · exact key e1 c hc
  · exact .inl rfl
  · exact key e2 c hc
  · exact .inl rfl
  · exact key e3 c hc
  · exact .inl rfl
  · exact key e4 c hc

theorem mem_joinWith {sep c : Char} {ps : List Str} (h : c ∈ joinWith sep ps) : c = sep ∨ ∃ p ∈ ps, c ∈ p := by
  induction ps with
  | nil => cases h
  | cons p ps ih =>
    cases ps with
    | nil => exact .inr ⟨p, by simp, h⟩
    | cons q ps =>
      rw [joinWith] at h
      rcases List.mem_append.1 h with h | h
      · exact .inr ⟨p, by simp, h⟩
      · rcases List.mem_cons.1 h with h | h
        · exact .inl h
        · rcases ih h with h | ⟨x, h1, h2⟩
          · exact .inl h
          · exact .inr ⟨x, by simp [h1], h2⟩

theorem count_joinWith (sep : Char) (ps : List Str) : ps.length ≤ (joinWith sep ps).count sep + 1 := by
  induction ps with
  | nil => simp
  | cons p ps ih =>
    cases ps with
    | nil => simp
    | cons q ps =>
      rw [joinWith, List.count_append, List.count_cons_self]
      rw [List.length_cons]
      omega

theorem toks_chars {ps : List Str} {gs : List Nat} {b : Bool} (h : Toks ps gs b) :
    (∀ p ∈ ps, ∀ c ∈ p, c ∈ "0123456789abcdefABCDEF.:".toList) ∧ gs.length ≤ ps.length + 1 := by
  have sub : ∀ c ∈ "0123456789abcdefABCDEF".toList, c ∈ "0123456789abcdefABCDEF.:".toList := by decide
  have sub' : ∀ c ∈ "0123456789".toList, c ∈ "0123456789abcdefABCDEF.:".toList := by decide
  induction h with
  | nil => simp
  | v4 h =>
    refine ⟨?_, by rw [ipv4Groups_length]; simp⟩
    intro p hp c hc
    simp only [List.mem_singleton] at hp
    subst hp
    rcases ipv4Text_chars h c hc with rfl | h
    · decide
    · exact sub' c h
  | cons hp _ ih =>
    refine ⟨?_, by simp; exact ih.2⟩
    intro q hq c hc
    rcases List.mem_cons.1 hq with rfl | hq
    · obtain ⟨d, hd⟩ := digitsValue_all hp.value c hc
      exact sub c (toDigit_mem hd)
    · exact ih.1 q hq c hc

/-- C89: what a literal looks like. Every other text, for instance one with a letter after `f`, a hyphen, a zone or brackets, is taken as a host name. -/
theorem C89_characters {s : Str} {a : IpAddr} (h : parseIpAddr s = some a) :
    (∀ x, a = .v4 x → (∀ c ∈ s, c ∈ "0123456789.".toList) ∧ s.count '.' = 3) ∧
      (∀ x, a = .v6 x → (∀ c ∈ s, c ∈ "0123456789abcdefABCDEF.:".toList) ∧ 2 ≤ s.count ':') := by
  rw [C89_meaning] at h
  cases h with
  | v4 h1 h2 =>
    refine ⟨?_, fun x hx => (by cases hx)⟩
    rintro x -
    have ht := ipv4Text_iff.2 ⟨h1, h2⟩
    constructor
    · intro c hc
      rcases ipv4Text_chars ht c hc with rfl | h
      · decide
      · have sub : ∀ c ∈ "0123456789".toList, c ∈ "0123456789.".toList := by decide
        exact sub c h
    · obtain ⟨p, q, r, t, k, l, m, n, rfl, e1, e2, e3, e4, -⟩ := ht
      simp only [List.count_append, List.count_cons_self]
      rw [List.count_eq_zero_of_not_mem (octetText_no e1 dot_stops), List.count_eq_zero_of_not_mem (octetText_no e2 dot_stops),
        List.count_eq_zero_of_not_mem (octetText_no e3 dot_stops), List.count_eq_zero_of_not_mem (octetText_no e4 dot_stops)]
  | v6 h1 h2 =>
    refine ⟨fun x hx => (by cases hx), ?_⟩
    rintro x -
    rcases readIpv6Addr_iff.1 (readIpv6Addr_meaning.2 ⟨h1, h2⟩) with ⟨ps, gs, b, e1, e8, rfl, -⟩ | ⟨ps, gs, qs, hs, b, e1, e2, -, rfl, -⟩
    · obtain ⟨c1, c2⟩ := toks_chars e1
      constructor
      · intro c hc
        rcases mem_joinWith hc with rfl | ⟨p, hp, hc⟩
        · decide
        · exact c1 p hp c hc
      · have := count_joinWith ':' ps
        omega
    · obtain ⟨c1, -⟩ := toks_chars e1
      obtain ⟨c2, -⟩ := toks_chars e2
      constructor
      · intro c hc
        simp only [List.mem_append, List.mem_cons] at hc
        rcases hc with hc | rfl | rfl | hc
        · rcases mem_joinWith hc with rfl | ⟨p, hp, hc⟩
          · decide
          · exact c1 p hp c hc
        · decide
        · decide
        · rcases mem_joinWith hc with rfl | ⟨p, hp, hc⟩
          · decide
          · exact c2 p hp c hc
      · rw [List.count_append, List.count_cons_self, List.count_cons_self]
        omega

/-- C89: name servers are asked about a host exactly if it is not a literal (and some lookup is allowed). -/
theorem C89_lookups (dns : Dns) (host : Str) (cfg : ResConf) :
    (resolve parseIpAddr dns host cfg).1 = [] ↔ (∃ a, Literal host a) ∨ ∀ q, ¬ MayAsk cfg host q := by
  cases h : parseIpAddr host with
  | some a =>
    rw [(C44_literal h dns cfg).1]
    simp only [true_iff]
    exact .inl ⟨a, (C89_meaning _ _).1 h⟩
  | none =>
    have hno : ¬ ∃ a, Literal host a := by
      rintro ⟨a, ha⟩
      rw [← C89_meaning, h] at ha; cases ha
    obtain ⟨h1, -, h2⟩ := C44_queries h dns cfg
    constructor
    · intro he
      right
      intro q hq
      rcases h2 with ⟨-, h3, -⟩ | ⟨pre, q', l, h3, -⟩
      · have := h3 q hq
        rw [he] at this; cases this
      · rw [he] at h3
        simp at h3
    · rintro (h3 | h3)
      · exact absurd h3 hno
      · cases hl : (resolve parseIpAddr dns host cfg).1 with
        | nil => rfl
        | cons q l => exact absurd (h1 q (by rw [hl]; simp)) (h3 q)

/-- Both are possible; an address with a zone or in brackets is sent to the name servers. -/
example : (resolve parseIpAddr (fun _ => none) "fe80::1".toList ⟨.Ipv6, ⟨true, false, false, false⟩, ⟨true, true, true⟩⟩).1 = [] ∧
    (resolve parseIpAddr (fun _ => none) "fe80::1%eth0".toList ⟨.Ipv6, ⟨true, false, false, false⟩, ⟨true, true, true⟩⟩).1 =
      [⟨.system, .system, "fe80::1%eth0".toList, .AAAA⟩] ∧
    (resolve parseIpAddr (fun _ => none) "[::1]".toList ⟨.Ipv6, ⟨false, true, false, false⟩, ⟨true, false, false⟩⟩).1 =
      [⟨.quad9, .tls, "[::1]".toList, .AAAA⟩] ∧
    (resolve parseIpAddr (fun _ => none) "h".toList ⟨.Ipv6, ⟨false, false, false, false⟩, ⟨true, false, false⟩⟩).1 = [] := by decide +kernel

/-- C89: knocking on a literal contacts the address it denotes and nothing else, without asking any name server; it succeeds exactly if the exchange over
that connection does. -/
theorem C89_knock (dns : Dns) (opens : Opens)
    {exchange : UserId → ResourceId → Key → NetAct → R Unit} {conf : Config} (hp : PortEnabled conf) {addr : Str} {a : IpAddr} (hl : Literal addr a)
    (sp : Option UInt16) (st su : Bool) (port : UInt16) (user : Option UserId) (srv : ResSrv) (crypt : ResCrypt) {u : UserId} {k : Key} {id : ResourceId}
    (hu : user = some u ∨ (user = none ∧ conf.defaultUser = u)) (hk : conf.key u = some k) (hid : conf.resourceIdByPort port (some u) = some id)
    (hrand : ∀ act, exchange u id k act ≠ .panic) :
    let server : KnockServer := ⟨addr, AddrMode.ofFlags false false, sp, st, su⟩
    let out := runKnock parseIpAddr dns opens exchange conf server port user srv crypt
    (∀ act ∈ out.1, Connection server conf a act) ∧ (∃ act ∈ out.1, Connection server conf a act) ∧
      (out.2 = .ok () ↔ ∃ act, Connection server conf a act ∧ opens act = true ∧ exchange u id k act = .ok ()) := by
  intro server out
  have hpa := (C89_meaning _ _).2 hl
  obtain ⟨-, -, -, -, h5, -⟩ := C45_families_and_verdict parseIpAddr dns opens hp addr false false sp st su port user srv crypt hu hk hid hrand
  obtain ⟨h6, h7⟩ := h5 a hpa
  obtain ⟨m, hm⟩ : ∃ m, InFamily m a := by
    cases a with
    | v4 x => exact ⟨.Ipv4, .v4 x⟩
    | v6 x => exact ⟨.Ipv6, .v6 x⟩
  obtain ⟨h8, h9⟩ := h7 rfl rfl m hm
  have htried := h8 a ((C44_literal hpa dns ⟨m, srv, crypt⟩).2.1 hm)
  refine ⟨h6, htried, h9.trans ?_⟩
  obtain ⟨act0, hact0, hc0⟩ := htried
  have uniq : ∀ {x y : NetAct}, Connection server conf a x → Connection server conf a y → x = y := by
    rintro x y ⟨p, hp, hx⟩ ⟨q, hq, hy⟩
    have hpq : p = q := by
      rcases hp with hp | ⟨hp, hp'⟩ <;> rcases hq with hq | ⟨hq, hq'⟩
      · rw [hp] at hq; injection hq
      · rw [hp] at hq; cases hq
      · rw [hp] at hq; cases hq
      · exact hp'.symm.trans hq'
    subst hpq
    rcases hx with ⟨t1, rfl⟩ | ⟨t1, rfl⟩ <;> rcases hy with ⟨t2, rfl⟩ | ⟨t2, rfl⟩
    · rfl
    · exact absurd t1 t2
    · exact absurd t2 t1
    · rfl
  constructor
  · rintro ⟨act, hact, b, hb, hc, ho, he⟩
    exact ⟨act, h6 act hact, ho, he⟩
  · rintro ⟨act, hc, ho, he⟩
    refine ⟨act, ?_, a, hm, hc, ho, he⟩
    rw [uniq hc hc0]; exact hact0

/-- The address in the text is contacted by UDP; nothing else happens. -/
example : Literal "2001:db8::1".toList (.v6 ⟨[0x20, 1, 0xD, 0xB8, 0, 0, 0, 0, 0, 0, 0, 0, 0, 0, 0, 1], rfl⟩) ∧ PortEnabled exampleLoaded ∧
    exampleLoaded.key ⟨0xA1⟩ = some exampleKey ∧ exampleLoaded.resourceIdByPort 22 (some ⟨0xA1⟩) = some ⟨7⟩ ∧
    runKnock parseIpAddr (fun _ => none) (fun _ => true) (fun _ _ _ _ => .ok ()) exampleLoaded ⟨"2001:db8::1".toList, .TryBoth, none, false, true⟩ 22 (some ⟨0xA1⟩)
      ⟨true, true, true, true⟩ ⟨true, true, true⟩ = ([.udp (.v6 ⟨[0x20, 1, 0xD, 0xB8, 0, 0, 0, 0, 0, 0, 0, 0, 0, 0, 0, 1], rfl⟩) 5800], .ok ()) := by
  rw [← C89_meaning]
  refine ⟨by decide +kernel, .inl rfl, by decide +kernel, by decide +kernel, by decide +kernel⟩

end Letmein.Props
