import Verif.Lemmas.Json
import Verif.Props.Firewall

/-!
# C90: What `nft` is told is what letmeinfwd meant
-/

namespace Letmein.Props
open Letmein Spec

/-! ## Helpers -/

theorem joinWith_length (c : Char) (k : Nat) (ps : List Str) (h : ∀ p ∈ ps, p.length ≤ k) : (joinWith c ps).length ≤ (k + 1) * ps.length := by
  match ps with
  | [] => simp [joinWith]
  | [p] => have := h p (by simp); simp [joinWith]; omega
  | p :: q :: ps =>
    have h1 := h p (by simp)
    have h2 := joinWith_length c k (q :: ps) (fun x hx => h x (by simp [hx]))
    simp only [joinWith, List.length_append, List.length_cons] at *
    simp only [Nat.mul_add] at *
    omega

theorem showIpv4_length (a : Arr 4) : (showIpv4 a).length ≤ 16 := by
  have := joinWith_length '.' 3 (a.val.map (fun b => showNat b.toNat)) (by
    intro p hp
    obtain ⟨b, _, rfl⟩ := List.mem_map.1 hp
    exact showDigits_length digitLower (by omega) 2 _ _ (by have := b.toNat_lt; omega))
  rw [List.length_map, a.property] at this
  exact this

theorem segments_lt : ∀ (b : Bytes), ∀ s ∈ segments b, s < 65536
  | [], s, h => by simp [segments] at h
  | [_], s, h => by simp [segments] at h
  | a :: b :: rest, s, h => by
    rw [segments, List.mem_cons] at h
    rcases h with rfl | h
    · have := a.toNat_lt; have := b.toNat_lt; omega
    · exact segments_lt rest s h

theorem segments_len : ∀ (b : Bytes), 2 * (segments b).length ≤ b.length
  | [] => by simp [segments]
  | [_] => by simp [segments]
  | a :: b :: rest => by have := segments_len rest; simp [segments]; omega

theorem hexTokens_length {l : List Nat} (h : ∀ s ∈ l, s < 65536) : (joinWith ':' (l.map showHexLower)).length ≤ 5 * l.length := by
  have := joinWith_length ':' 4 (l.map showHexLower) (by
    intro p hp
    obtain ⟨b, hb, rfl⟩ := List.mem_map.1 hp
    exact showDigits_length digitLower (by omega) 3 _ _ (by have := h b hb; omega))
  rwa [List.length_map] at this

theorem showIpv6_length (a : Arr 16) : (showIpv6 a).length ≤ 42 := by
  unfold showIpv6
  split
  · have := showIpv4_length ‹_›
    simp only [List.length_append]
    have h : ("::ffff:".toList).length = 7 := rfl
    omega
  · have hl := segments_len a.val
    rw [a.property] at hl
    have hs := segments_lt a.val
    simp only
    split
    · have h1 := hexTokens_length (l := (segments a.val).take (zeroRun (segments a.val) 0 (0, 0) (0, 0)).1)
        (fun s h => hs s (List.mem_of_mem_take h))
      rename_i hr
      have h2 := hexTokens_length (l := (segments a.val).drop ((zeroRun (segments a.val) 0 (0, 0) (0, 0)).1 + (zeroRun (segments a.val) 0 (0, 0) (0, 0)).2))
        (fun s h => hs s (List.mem_of_mem_drop h))
      have h : ("::".toList).length = 2 := rfl
      simp only [List.length_append, List.length_take, List.length_drop] at *
      omega
    · have := hexTokens_length hs
      omega

theorem digitLower_ascii : ∀ d, d < 16 → (digitLower d).toNat < 128 := by decide

theorem joinWith_ascii {c : Char} (hc : c.toNat < 128) {ps : List Str} (h : ∀ p ∈ ps, ∀ x ∈ p, x.toNat < 128) : ∀ x ∈ joinWith c ps, x.toNat < 128 := by
  match ps with
  | [] => simp [joinWith]
  | [p] => simpa [joinWith] using h p (by simp)
  | p :: q :: ps =>
    intro x hx
    rw [joinWith, List.mem_append, List.mem_cons] at hx
    rcases hx with hx | rfl | hx
    · exact h p (by simp) x hx
    · exact hc
    · exact joinWith_ascii hc (fun y hy => h y (by simp [hy])) x hx

theorem showDigits_ascii {b : Nat} (hb : 0 < b) (hb' : b ≤ 16) {fuel n : Nat} : ∀ x ∈ showDigits digitLower b fuel n, x.toNat < 128 := by
  intro x hx
  obtain ⟨d, hd, rfl⟩ := mem_showDigits (digit := digitLower) hb hx
  exact digitLower_ascii d (by omega)

theorem showIpv4_ascii (a : Arr 4) : ∀ x ∈ showIpv4 a, x.toNat < 128 := by
  refine joinWith_ascii (by decide) ?_
  intro p hp
  obtain ⟨b, _, rfl⟩ := List.mem_map.1 hp
  exact showDigits_ascii (by omega) (by omega)

theorem hexTokens_ascii (l : List Nat) : ∀ x ∈ joinWith ':' (l.map showHexLower), x.toNat < 128 := by
  refine joinWith_ascii (by decide) ?_
  intro p hp
  obtain ⟨b, _, rfl⟩ := List.mem_map.1 hp
  exact showDigits_ascii (by omega) (by omega)

theorem showIp_ascii (a : IpAddr) : ∀ x ∈ showIp a, x.toNat < 128 := by
  cases a with
  | v4 a => exact showIpv4_ascii a
  | v6 a =>
    intro x hx
    rw [showIp, showIpv6] at hx
    split at hx
    · rcases List.mem_append.1 hx with h | h
      · exact (by decide : ∀ x ∈ "::ffff:".toList, x.toNat < 128) x h
      · exact showIpv4_ascii _ x h
    · simp only at hx
      split at hx
      · rcases List.mem_append.1 hx with h | h
        · rcases List.mem_append.1 h with h | h
          · exact hexTokens_ascii _ x h
          · exact (by decide : ∀ x ∈ "::".toList, x.toNat < 128) x h
        · exact hexTokens_ascii _ x h
      · exact hexTokens_ascii _ x hx

theorem jsonHex_printable : ∀ n, n < 16 → 32 ≤ (jsonHex n).toNat := by decide

theorem jsonChar_printable (c : Char) : ∀ x ∈ jsonChar c, 32 ≤ x.toNat := by
  intro x hx
  unfold jsonChar at hx
  repeat' split at hx
  all_goals simp only [List.mem_cons, List.not_mem_nil, or_false] at hx
  · rcases hx with rfl | rfl <;> decide
  · rcases hx with rfl | rfl <;> decide
  · rcases hx with rfl | rfl <;> decide
  · rcases hx with rfl | rfl <;> decide
  · rcases hx with rfl | rfl <;> decide
  · rcases hx with rfl | rfl <;> decide
  · rcases hx with rfl | rfl <;> decide
  · rcases hx with rfl | rfl | rfl | rfl | rfl | rfl
    · decide
    · decide
    · decide
    · decide
    · exact jsonHex_printable _ (by omega)
    · exact jsonHex_printable _ (by omega)
  · subst hx; omega

theorem jsonString_printable (s : Str) : ∀ x ∈ jsonString s, 32 ≤ x.toNat := by
  intro x hx
  rw [jsonString, List.mem_cons, List.mem_append] at hx
  rcases hx with rfl | hx | hx
  · decide
  · obtain ⟨l, hl, hx⟩ := List.mem_flatten.1 hx
    obtain ⟨c, _, rfl⟩ := List.mem_map.1 hl
    exact jsonChar_printable c x hx
  · simp at hx; subst hx; decide

mutual
theorem show_printable (v : Json) : ∀ x ∈ v.show, 32 ≤ x.toNat := by
  intro x hx
  cases v with
  | null => revert x; decide
  | num n =>
    obtain ⟨d, hd, rfl⟩ := showNat_jsonDigits hx
    exact (by decide : ∀ d, d < 10 → 32 ≤ (digitLower d).toNat) d hd
  | str s => exact jsonString_printable s x hx
  | arr l =>
    rw [Json.show, List.mem_cons, List.mem_append] at hx
    rcases hx with rfl | hx | hx
    · decide
    · exact list_printable l x hx
    · simp at hx; subst hx; decide
  | obj l =>
    rw [Json.show, List.mem_cons, List.mem_append] at hx
    rcases hx with rfl | hx | hx
    · decide
    · exact fields_printable l x hx
    · simp at hx; subst hx; decide
theorem list_printable (l : JsonList) : ∀ x ∈ l.show, 32 ≤ x.toNat := by
  intro x hx
  cases l with
  | nil => simp [JsonList.show] at hx
  | cons v l =>
    rw [JsonList.show_cons] at hx
    split at hx
    · exact show_printable v x hx
    · rw [List.mem_append, List.mem_cons] at hx
      rcases hx with hx | rfl | hx
      · exact show_printable v x hx
      · decide
      · exact list_printable l x hx
theorem fields_printable (l : JsonFields) : ∀ x ∈ l.show, 32 ≤ x.toNat := by
  intro x hx
  cases l with
  | nil => simp [JsonFields.show] at hx
  | cons k v l =>
    rw [JsonFields.show_cons, List.mem_append, List.mem_cons] at hx
    rcases hx with hx | rfl | hx
    · exact jsonString_printable k x hx
    · decide
    · split at hx
      · exact show_printable v x hx
      · rw [List.mem_append, List.mem_cons] at hx
        rcases hx with hx | rfl | hx
        · exact show_printable v x hx
        · decide
        · exact fields_printable l x hx
end

theorem cmdChain_own {n : NftNames} {c : NfCmd} (h : cmdOwn n c) : cmdChain c = (n.family, n.table, n.chainInput) := by
  cases c <;> (obtain ⟨h1, h2, h3⟩ := h; simp [cmdChain, h1, h2, h3])

theorem textOpens_iff (cmds : List NfCmd) (pkt : Packet) :
    TextOpens (nftText cmds) pkt ↔ ∃ r, NfCmd.add r ∈ cmds ∧ familySees r.family pkt.src = true ∧ ruleAccepts pkt r.expr = true := by
  simp only [TextOpens, readNft_text, Option.some.injEq]
  constructor
  · rintro ⟨c, r, rfl, h⟩; exact ⟨r, h⟩
  · rintro ⟨r, h⟩; exact ⟨_, r, rfl, h⟩

theorem add_mem_addCmd {n : NftNames} {cs : List Content} {pkt : Packet} :
    (∃ r, NfCmd.add r ∈ cs.map (addCmd n) ∧ familySees r.family pkt.src = true ∧ ruleAccepts pkt r.expr = true) ↔
      (familySees n.family pkt.src && cs.any (fun c => ruleAccepts pkt c.2)) = true := by
  simp only [Bool.and_eq_true, List.any_eq_true, List.mem_map]
  constructor
  · rintro ⟨r, ⟨c, hc, he⟩, h1, h2⟩
    rw [addCmd] at he
    injection he with he
    subst he
    exact ⟨h1, c, hc, h2⟩
  · rintro ⟨h1, c, hc, h2⟩
    exact ⟨_, ⟨c, hc, rfl⟩, h1, h2⟩

/-! ## The properties -/

/-- Every value is read back from its text, whatever the strings in it contain. -/
theorem C90_values (v : Json) : readJson v.show = some v := readJson_show v

/-- A string with quotes, backslashes, control characters and characters beyond ASCII; and a text with white space and other escapes. -/
example : (jsonObj [("a\"b".toList, .arr (.ofList [.str "\\\n\x01é".toList, .num 10, .null]))]).show =
      "{\"a\\\"b\":[\"\\\\\\n\\u0001é\",10,null]}".toList ∧
    (readJson " { \"k\" : [ 0 , \"\\u00e9\\/\" , { } , [ ] ] } ".toList).map Json.show = some "{\"k\":[0,\"é/\",{},[]]}".toList ∧
    (readJson "[1,]".toList).isNone = true ∧ (readJson "[01]".toList).isNone = true ∧ (readJson "null null".toList).isNone = true := by
  decide +kernel

/-- `nft` reads exactly the commands that letmeinfwd put into the batch, whatever names are configured. -/
theorem C90_commands (cmds : List NfCmd) : readNft (nftText cmds) = some cmds := readNft_text cmds

/-- A name that looks like the end of the command and a command of its own stays a name. -/
example : nftText [.flush .INet "filter".toList "X\"}}},{\"flush\":{\"ruleset\":null".toList] =
      "{\"nftables\":[{\"flush\":{\"chain\":{\"family\":\"inet\",\"table\":\"filter\",\"name\":\"X\\\"}}},{\\\"flush\\\":{\\\"ruleset\\\":null\"}}}]}".toList ∧
    readNft "{\"nftables\":[{\"flush\":{\"chain\":{\"table\":\"t\",\"name\":\"c\",\"family\":\"ip6\"}}}]}".toList = some [.flush .IP6 "t".toList "c".toList] ∧
    readNft "{\"nftables\":[{\"flush\":{\"ruleset\":null}}]}".toList = none := by decide +kernel

/-- The text of a lease is the usual one. -/
example : (match genAddLeaseCmds { Config.new .Server with nftFamily := "inet".toList, nftTable := "filter".toList, nftChainInput := "LETMEIN-INPUT".toList }
      ⟨.v4 ⟨[10, 0, 0, 1], rfl⟩, .Tcp 22, 0⟩ with | .ok c => nftText c | _ => []) =
    "{\"nftables\":[{\"add\":{\"rule\":{\"family\":\"inet\",\"table\":\"filter\",\"chain\":\"LETMEIN-INPUT\",\"expr\":[{\"match\":{\"left\":{\"payload\":{\"protocol\":\"ip\",\"field\":\"saddr\"}},\"right\":\"10.0.0.1\",\"op\":\"==\"}},{\"match\":{\"left\":{\"payload\":{\"protocol\":\"tcp\",\"field\":\"dport\"}},\"right\":22,\"op\":\"==\"}},{\"accept\":null}],\"comment\":\"10.0.0.1/22/TCP/accept/letmein/GENERATED\"}}}]}".toList := by
  decide +kernel

/-- Different batches have different texts. -/
theorem C90_unambiguous {a b : List NfCmd} (h : nftText a = nftText b) : a = b := by
  have := readNft_text a
  rw [h, readNft_text] at this
  injection this with this
  exact this.symm

example : nftText [.delete .IP "t".toList "c".toList 12] ≠ nftText [.delete .IP "t".toList "c".toList 1, .delete .IP "t".toList "c".toList 2] := by decide +kernel

/-- The text is a single line of printable characters: no name brings a line break, a NUL or another control character into it. -/
theorem C90_one_line (cmds : List NfCmd) : ∀ c ∈ nftText cmds, 32 ≤ c.toNat := show_printable _

example : nftText [.flush .INet "a\nb".toList "\x00".toList] =
    "{\"nftables\":[{\"flush\":{\"chain\":{\"family\":\"inet\",\"table\":\"a\\nb\",\"name\":\"\\u0000\"}}}]}".toList := by decide +kernel

/-- Every command that `nft` reads, from any of the three kinds of batches, is about the configured chain and no other. -/
theorem C90_own_chain {conf : Config} {n : NftNames} (hn : ChainOf conf n) {cmds : List NfCmd}
    (h : (∃ fw, rebuildCmds conf fw = .ok cmds) ∨ (∃ l, genAddLeaseCmds conf l = .ok cmds) ∨
      ∃ rules ls css, collect (genDeleteLeaseCmds conf rules) ls = .ok css ∧ cmds = css.flatten) :
    ∃ read, readNft (nftText cmds) = some read ∧ ∀ c ∈ read, cmdChain c = (n.family, n.table, n.chainInput) := by
  refine ⟨cmds, readNft_text cmds, fun c hc => cmdChain_own ?_⟩
  rcases h with ⟨fw, h⟩ | ⟨l, h⟩ | ⟨rules, ls, css, h, rfl⟩
  · exact rebuildCmds_own hn h c hc
  · exact genAddLeaseCmds_own hn h c hc
  · obtain ⟨cs, hcs, hc⟩ := List.mem_flatten.1 hc
    obtain ⟨l, _, hl⟩ := mem_collect h hcs
    exact genDelete_own hn hl c hc

/-- The text of a lease opens exactly the lease's ports for exactly the lease's address. -/
theorem C90_lease {conf : Config} {n : NftNames} (hn : ChainOf conf n) {l : Lease} {cmds : List NfCmd} (h : genAddLeaseCmds conf l = .ok cmds)
    (pkt : Packet) : TextOpens (nftText cmds) pkt ↔ covers l.addr l.port pkt := by
  by_cases hs : Supported n.family l.addr
  · rw [genAddLeaseCmds_ok hn hs] at h
    injection h with h
    subst h
    rw [textOpens_iff, add_mem_addCmd, leaseContents_accept hs]
  · rw [genAddLeaseCmds_err hn hs] at h
    cases h

/-- The text of a rebuild opens exactly the control port and the ports of the leases, and after the shutdown nothing. -/
theorem C90_rebuild {conf : Config} {n : NftNames} (hn : ChainOf conf n) {fw : NftFirewall} {cmds : List NfCmd} (h : rebuildCmds conf fw = .ok cmds)
    (pkt : Packet) : TextOpens (nftText cmds) pkt ↔
      fw.shutdown = false ∧ ((familySees n.family pkt.src = true ∧ toControlPort conf pkt) ∨ ∃ e ∈ fw.leases, covers e.2.addr e.2.port pkt) := by
  rw [textOpens_iff]
  cases hd : fw.shutdown with
  | true =>
    rw [rebuildCmds_shutdown hn hd] at h
    injection h with h
    subst h
    simp
  | false =>
    have hs : ∀ e ∈ fw.leases, Supported n.family e.2.addr := by
      intro e he
      refine Classical.byContradiction (fun hns => ?_)
      unfold rebuildCmds at h
      rw [names_get_iff.2 hn, genCtrlCmds_ok hn] at h
      simp only [R.bind_ok, hd, Bool.not_false, if_true] at h
      cases hl : collect (fun e : LeaseId × Lease => genAddLeaseCmds conf e.2) fw.leases with
      | ok ls =>
        have hi := collect_inv hl
        have hm : genAddLeaseCmds conf e.2 ∈ ls.map R.ok := by rw [← hi]; exact List.mem_map_of_mem (f := fun e : LeaseId × Lease => genAddLeaseCmds conf e.2) he
        rw [genAddLeaseCmds_err hn hns] at hm
        obtain ⟨_, _, hx⟩ := List.mem_map.1 hm
        cases hx
      | err => rw [hl] at h; simp at h
      | panic => rw [hl] at h; simp at h
    rw [rebuildCmds_ok hn hs hd] at h
    injection h with h
    subst h
    have hf : ∀ r, NfCmd.add r ≠ NfCmd.flush n.family n.table n.chainInput := by intro r h; cases h
    simp only [List.mem_cons, hf, false_or, true_and]
    rw [add_mem_addCmd, List.any_append, Bool.and_or_distrib_left, Bool.or_eq_true, Bool.and_eq_true, ctrlContents_accept]
    refine or_congr Iff.rfl ?_
    constructor
    · intro hh
      rw [Bool.and_eq_true, List.any_eq_true] at hh
      obtain ⟨h1, c, hc, h2⟩ := hh
      obtain ⟨e, he, hc⟩ := List.mem_flatMap.1 hc
      refine ⟨e, he, (leaseContents_accept (hs e he) pkt).1 ?_⟩
      rw [Bool.and_eq_true, List.any_eq_true]
      exact ⟨h1, c, hc, h2⟩
    · rintro ⟨e, he, hc⟩
      have := (leaseContents_accept (hs e he) pkt).2 hc
      rw [Bool.and_eq_true, List.any_eq_true] at this
      obtain ⟨h1, c, hc, h2⟩ := this
      rw [Bool.and_eq_true, List.any_eq_true]
      exact ⟨h1, c, List.mem_flatMap.2 ⟨e, he, hc⟩, h2⟩

/-- The hypotheses are met: a configuration, a firewall with two leases and a packet of one of them. -/
example : ∃ conf n fw cmds, ChainOf conf n ∧ rebuildCmds conf fw = .ok cmds ∧ fw.leases.length = 2 ∧
    TextOpens (nftText cmds) ⟨.v4 ⟨[10, 0, 0, 1], rfl⟩, .tcp, 22⟩ ∧ ¬ TextOpens (nftText cmds) ⟨.v4 ⟨[10, 0, 0, 2], rfl⟩, .tcp, 22⟩ := by
  let conf : Config := { Config.new .Server with nftFamily := "inet".toList, nftTable := "filter".toList, nftChainInput := "LETMEIN-INPUT".toList }
  let n : NftNames := ⟨.INet, "filter".toList, "LETMEIN-INPUT".toList⟩
  let l1 : Lease := ⟨.v4 ⟨[10, 0, 0, 1], rfl⟩, .Tcp 22, 0⟩
  let l2 : Lease := ⟨.v4 ⟨[10, 0, 0, 2], rfl⟩, .Udp 53, 0⟩
  let fw : NftFirewall := ⟨[((l1.addr, l1.port), l1), ((l2.addr, l2.port), l2)], false⟩
  have hn : ChainOf conf n := ⟨rfl, rfl, rfl, by decide, by decide⟩
  cases hc : rebuildCmds conf fw with
  | ok cmds =>
    refine ⟨conf, n, fw, cmds, hn, hc, rfl, (C90_rebuild hn hc _).2 ⟨rfl, .inr ⟨_, List.mem_cons_self, rfl, rfl, rfl⟩⟩, ?_⟩
    rw [C90_rebuild hn hc]
    rintro ⟨_, ⟨_, h⟩ | ⟨e, he, h, hp⟩⟩
    · revert h; simp only [toControlPort]; decide
    · simp only [fw, List.mem_cons, List.not_mem_nil, or_false] at he
      rcases he with rfl | rfl
      · revert h; decide
      · exact absurd hp.1 (by decide)
  | err => exact absurd hc (by decide +kernel)
  | panic => exact absurd hc (by decide +kernel)

/-- The comments, which identify the rules, fit into what the kernel keeps of a comment (128 bytes with its terminator), and consist of ASCII characters. -/
theorem C90_comment_fits (addr : Option IpAddr) (port : SinglePort) :
    (genRuleComment addr port).length < 128 ∧ ∀ c ∈ genRuleComment addr port, c.toNat < 128 := by
  have hp : port.show.length ≤ 9 ∧ ∀ c ∈ port.show, c.toNat < 128 := by
    have hn : ∀ p : UInt16, (showNat p.toNat).length ≤ 5 := fun p => showDigits_length digitLower (by omega) 4 _ _ (by have := p.toNat_lt; omega)
    constructor
    · cases port with
      | Tcp p => have := hn p; simp [SinglePort.show]; omega
      | Udp p => have := hn p; simp [SinglePort.show]; omega
    · intro c hc
      cases port with
      | Tcp p =>
        rcases List.mem_append.1 hc with h | h
        · exact showDigits_ascii (by omega) (by omega) c h
        · exact (by decide : ∀ x ∈ "/TCP".toList, x.toNat < 128) c h
      | Udp p =>
        rcases List.mem_append.1 hc with h | h
        · exact showDigits_ascii (by omega) (by omega) c h
        · exact (by decide : ∀ x ∈ "/UDP".toList, x.toNat < 128) c h
  have ha : ∀ a, (showIp a).length ≤ 42 := by
    intro a
    cases a with
    | v4 a => have := showIpv4_length a; simp only [showIp]; omega
    | v6 a => exact showIpv6_length a
  have hl : ("/accept/letmein/GENERATED".toList).length = 25 := rfl
  have hall : ∀ c ∈ "/accept/letmein/GENERATED".toList, c.toNat < 128 := by decide
  constructor
  · cases addr with
    | none => simp only [genRuleComment, List.length_append, hl]; have : ("any/".toList).length = 4 := rfl; omega
    | some a => simp only [genRuleComment, List.length_append, hl]; have := ha a; have : ("/".toList).length = 1 := rfl; omega
  · intro c hc
    rcases List.mem_append.1 hc with hc | hc
    · rcases List.mem_append.1 hc with hc | hc
      · cases addr with
        | none => exact (by decide : ∀ x ∈ "any/".toList, x.toNat < 128) c hc
        | some a =>
          rcases List.mem_append.1 hc with hc | hc
          · exact showIp_ascii a c hc
          · exact (by decide : ∀ x ∈ "/".toList, x.toNat < 128) c hc
      · exact hp.2 c hc
    · exact hall c hc

/-- The longest address and port. -/
example : (genRuleComment (some (.v6 ⟨[255, 255, 255, 255, 255, 255, 255, 255, 255, 255, 255, 255, 255, 255, 255, 255], rfl⟩)) (.Udp 65535)).length = 74 := by
  decide +kernel

end Letmein.Props
