import Verif.Spec.DocRuleset
import Verif.Lemmas.ConfNum
import Verif.Props.FirewallMore

/-!
# C85: with the documented ruleset, services are hidden from everyone who has not knocked
-/

namespace Letmein.Props
open Letmein Prog Spec

theorem stmtsAccept_flow {pkt : InPacket} {p : Packet} (h : flow pkt = some p) (e : List Stmt) : stmtsAccept pkt e = ruleAccepts p e := by
  have hs : ∀ s, stmtMatches pkt s = stmtHolds p s := by
    intro s
    unfold flow at h
    cases s with
    | accept => rfl
    | matchSaddr protocol text =>
      have : p.src = pkt.src := by
        split at h
        · cases h; rfl
        · split at h
          · cases h; rfl
          · cases h
      simp only [stmtMatches, stmtHolds, this]
      generalize pkt.src = a
      cases a <;> rfl
    | matchDport protocol port =>
      split at h
      · rename_i h6
        cases h
        simp only [stmtMatches, stmtHolds, h6, L4.name]
        rw [Bool.eq_iff_iff]; simp
        intro _; exact decide_eq_true_iff.symm
      · rename_i h6
        split at h
        · rename_i h17
          cases h
          simp only [stmtMatches, stmtHolds, h17, L4.name]
          rw [Bool.eq_iff_iff]; simp
          intro _; exact decide_eq_true_iff.symm
        · cases h
  induction e with
  | nil => rfl
  | cons s rest ih =>
    cases s with
    | accept => rfl
    | matchSaddr a b => simp only [stmtsAccept, ruleAccepts, hs, ih]
    | matchDport a b => simp only [stmtsAccept, ruleAccepts, hs, ih]

theorem ownVerdict_flow {pkt : InPacket} {p : Packet} (h : flow pkt = some p) (n : NftNames) (k : Kernel) :
    ownVerdict n k pkt = if chainAccepts n k p then some .accept else none := by
  have hsrc : p.src = pkt.src := by
    unfold flow at h
    split at h
    · cases h; rfl
    · split at h
      · cases h; rfl
      · cases h
  unfold ownVerdict chainAccepts
  rw [hsrc]
  simp only [stmtsAccept_flow h]

theorem walk_append (call : Str → Option Verdict) (pkt : InPacket) (l l' : List BaseRule) :
    walk call pkt (l ++ l') = (walk call pkt l).or (walk call pkt l') := by
  induction l with
  | nil => simp [walk]
  | cons r rest ih =>
    simp only [List.cons_append, walk]
    split
    · cases r.act with
      | verdict v => simp
      | jump c =>
        simp only
        cases call c with
        | some v => simp
        | none => exact ih
    · exact ih

theorem walk_static (call : Str → Option Verdict) (pkt : InPacket) {static : List BaseRule} (h : NoJumps static) : walk call pkt static = staticVerdict static pkt := by
  induction static with
  | nil => rfl
  | cons r rest ih =>
    obtain ⟨v, hv⟩ := h r (by simp)
    have ih := ih fun r hr => h r (by simp [hr])
    unfold staticVerdict at ih ⊢
    simp only [walk, hv, List.find?_cons]
    cases hc : r.conds.all (·.holds pkt) with
    | true => simp [hv]
    | false => simp only [Bool.false_eq_true, if_false, Bool.false_and]; exact ih

theorem walk_cons1 (call : Str → Option Verdict) (pkt : InPacket) (c : Cond) (v : Verdict) (rest : List BaseRule) :
    walk call pkt (⟨[c], .verdict v⟩ :: rest) = if c.holds pkt then some v else walk call pkt rest := by
  simp only [walk, List.all_cons, List.all_nil, Bool.and_true]

theorem walk_before (call : Str → Option Verdict) (pkt : InPacket) :
    walk call pkt docBefore =
      if pkt.iif = "lo".toList then some .accept
      else if pkt.ct = .invalid then some .drop
      else if pkt.ct = .related ∨ pkt.ct = .established then some .accept
      else if pkt.l4proto = 58 ∨ pkt.l4proto = 1 then some .accept
      else none := by
  unfold docBefore
  rw [walk_cons1, walk_cons1, walk_cons1, walk_cons1, walk_cons1]
  have h1 : Cond.holds pkt (.iifname "lo".toList) = decide (pkt.iif = "lo".toList) := rfl
  have h2 : Cond.holds pkt (.ctState [.invalid]) = decide (pkt.ct = .invalid) := by simp [Cond.holds]
  have h3 : Cond.holds pkt (.ctState [.related, .established]) = decide (pkt.ct = .related ∨ pkt.ct = .established) := by simp [Cond.holds]
  have h4 : Cond.holds pkt (.metaL4proto 58) = decide (pkt.l4proto = 58) := rfl
  have h5 : Cond.holds pkt (.metaL4proto 1) = decide (pkt.l4proto = 1) := rfl
  rw [h1, h2, h3, h4, h5]
  simp only [decide_eq_true_eq]
  by_cases c4 : pkt.l4proto = 58
  · simp only [c4, true_or, if_true]
  · simp only [c4, false_or, if_false]
    rfl

theorem walk_after (call : Str → Option Verdict) (pkt : InPacket) :
    walk call pkt docAfter = match call docNames.chainInput with
      | some v => some v
      | none => if pkt.l4proto = 17 then some .drop else some .reject := by
  have h1 : Cond.holds pkt (.metaL4proto 17) = decide (pkt.l4proto = 17) := rfl
  have h2 : walk call pkt [⟨[.metaL4proto 17], .verdict .drop⟩, ⟨[], .verdict .reject⟩] = if pkt.l4proto = 17 then some .drop else some .reject := by
    rw [walk_cons1, h1]
    simp only [decide_eq_true_eq]
    rfl
  rw [← h2]
  rfl

/-- The verdict, written out. -/
theorem inputVerdict_eq (k : Kernel) {static : List BaseRule} (hs : NoJumps static) (pkt : InPacket) :
    inputVerdict docNames k static pkt =
      if pkt.iif = "lo".toList then .accept
      else if pkt.ct = .invalid then .drop
      else if pkt.ct = .related ∨ pkt.ct = .established then .accept
      else if pkt.l4proto = 58 ∨ pkt.l4proto = 1 then .accept
      else match staticVerdict static pkt with
        | some v => v
        | none => if ownVerdict docNames k pkt = some .accept then .accept else if pkt.l4proto = 17 then .drop else .reject := by
  have hown : ownVerdict docNames k pkt = none ∨ ownVerdict docNames k pkt = some .accept := by
    unfold ownVerdict; split
    · exact .inr rfl
    · exact .inl rfl
  unfold inputVerdict docInput
  rw [walk_append, walk_append, walk_static _ _ hs, walk_before, walk_after]
  simp only [if_true]
  by_cases h1 : pkt.iif = "lo".toList
  · rw [if_pos h1, if_pos h1]; rfl
  · rw [if_neg h1, if_neg h1]
    by_cases h2 : pkt.ct = .invalid
    · rw [if_pos h2, if_pos h2]; rfl
    · rw [if_neg h2, if_neg h2]
      by_cases h3 : pkt.ct = .related ∨ pkt.ct = .established
      · rw [if_pos h3, if_pos h3]; rfl
      · rw [if_neg h3, if_neg h3]
        by_cases h4 : pkt.l4proto = 58 ∨ pkt.l4proto = 1
        · rw [if_pos h4, if_pos h4]; rfl
        · rw [if_neg h4, if_neg h4]
          cases staticVerdict static pkt with
          | some v => rfl
          | none =>
            simp only [Option.none_or]
            rcases hown with h | h
            · rw [h]
              simp only [reduceCtorEq, if_false]
              split <;> rfl
            · rw [h]; rfl

/-- A packet that no rule but those of letmeinfwd decides about: it does not come from the host itself, belongs to no known connection, and no static rule matches. -/
structure Undecided (static : List BaseRule) (pkt : InPacket) : Prop where
  outside : pkt.iif ≠ "lo".toList
  fresh : pkt.ct = .new ∨ pkt.ct = .untracked
  static : staticVerdict static pkt = none

theorem undecided_verdict {k : Kernel} {static : List BaseRule} (hs : NoJumps static) {pkt : InPacket} (hu : Undecided static pkt) {p : Packet} (hp : flow pkt = some p) :
    inputVerdict docNames k static pkt = if chainAccepts docNames k p = true then .accept else if p.proto = .udp then .drop else .reject := by
  have h2 : pkt.ct ≠ .invalid := by rcases hu.fresh with h | h <;> rw [h] <;> simp
  have h3 : ¬ (pkt.ct = .related ∨ pkt.ct = .established) := by rcases hu.fresh with h | h <;> rw [h] <;> simp
  have h4 : ¬ (pkt.l4proto = 58 ∨ pkt.l4proto = 1) := by
    unfold flow at hp
    split at hp
    · rename_i h; rw [h]; simp
    · split at hp
      · rename_i h; rw [h]; simp
      · cases hp
  have h5 : pkt.l4proto = 17 ↔ p.proto = .udp := by
    unfold flow at hp
    split at hp
    · rename_i h; cases hp; simp [h]
    · split at hp
      · rename_i h; cases hp; simp [h]
      · cases hp
  rw [inputVerdict_eq k hs, if_neg hu.outside, if_neg h2, if_neg h3, if_neg h4, hu.static, ownVerdict_flow hp]
  simp only [h5]
  cases chainAccepts docNames k p <;> simp

/-- **C85** (hidden services). letmeinfwd runs with the documented ruleset. A TCP or UDP packet that opens a new connection, from another host, and that no static rule decides about, is accepted if and only if it
goes to an enabled control port or a grant covers it; otherwise it is rejected (TCP) or dropped (UDP). -/
theorem C85_hidden (conf : Config) (hn : ChainOf conf docNames) (k0 : Kernel) (ok0 : Bool) (s0 : FwdState) (h0 : fwdStart conf k0 ok0 = some s0)
    (ops : List FwdOp) (hf : Fair conf docNames s0 ops) (hr : (fwdRun conf s0 ops).2.phase = .running)
    (static : List BaseRule) (hs : NoJumps static) (pkt : InPacket) (hu : Undecided static pkt) (p : Packet) (hp : flow pkt = some p) :
    (inputVerdict docNames (fwdRun conf s0 ops).2.kernel static pkt = .accept ↔
      toControlPort conf p ∨ ∃ addr lp e, Grants.none.after conf.nftTimeout (fwdRun conf s0 ops).1 addr lp = some e ∧ covers addr lp p) ∧
    (inputVerdict docNames (fwdRun conf s0 ops).2.kernel static pkt ≠ .accept →
      inputVerdict docNames (fwdRun conf s0 ops).2.kernel static pkt = if p.proto = .udp then .drop else .reject) := by
  rw [undecided_verdict hs hu hp]
  have h := C19_chain_equals_grants conf docNames hn k0 ok0 s0 h0 ops hf hr p
  have hf : familySees docNames.family p.src = true := by rfl
  simp only [hf, true_and] at h
  constructor
  · rw [← h]
    split
    · rename_i hc; simp [hc]
    · rename_i hc
      have : ∀ v : Verdict, v ≠ .accept → (v = .accept ↔ chainAccepts docNames (fwdRun conf s0 ops).2.kernel p = true) := fun v hv => by simp [hv, hc]
      apply this
      split <;> simp
  · split
    · intro h; exact absurd rfl h
    · intro _; rfl

/-- **C85** (closed in time). As `C85_hidden`; at time `t` some maintenance run lies at most `P` back. Then a packet that is accepted at `t` and does not go to the control port is covered by a request that was
acknowledged no earlier than `t - timeout - P`. -/
theorem C85_closed_in_time (conf : Config) (hn : ChainOf conf docNames) (k0 : Kernel) (ok0 : Bool) (s0 : FwdState) (h0 : fwdStart conf k0 ok0 = some s0)
    (ops : List FwdOp) (hf : Fair conf docNames s0 ops) (hr : (fwdRun conf s0 ops).2.phase = .running) (hch : Chronological ops) (t P tm : Nat) (env : NftEnv)
    (hm : FwdOp.maintain tm env ∈ ops) (ht : t ≤ tm + P)
    (static : List BaseRule) (hs : NoJumps static) (pkt : InPacket) (hu : Undecided static pkt) (p : Packet) (hp : flow pkt = some p)
    (hacc : inputVerdict docNames (fwdRun conf s0 ops).2.kernel static pkt = .accept) (hnc : ¬ toControlPort conf p) :
    ∃ x ∈ (fwdRun conf s0 ops).1, ∃ addr lp to, granted x.1 x.2 = some (addr, lp, to) ∧ covers addr lp p ∧ t ≤ to + conf.nftTimeout + P := by
  rw [undecided_verdict hs hu hp] at hacc
  split at hacc
  · rename_i hc
    exact C20_bounded conf docNames hn k0 ok0 s0 h0 ops hf hr hch t P tm env hm ht p hc hnc
  · split at hacc <;> cases hacc

/-- **C85** (established connections stay). Packets of connections that are known to the kernel are accepted whatever letmeinfwd does to its chain: a connection outlives the grant. -/
theorem C85_established (k : Kernel) (static : List BaseRule) (hs : NoJumps static) (pkt : InPacket) (h : pkt.ct = .established ∨ pkt.ct = .related) :
    inputVerdict docNames k static pkt = .accept := by
  rw [inputVerdict_eq k hs]
  split
  · rfl
  · rw [if_neg (by rcases h with h | h <;> rw [h] <;> simp), if_pos h.symm]

/-- **C85** (letmeinfwd only opens). Whatever is in the chain, no packet is refused that would be accepted with an empty chain. -/
theorem C85_only_opens (k k' : Kernel) (static : List BaseRule) (hs : NoJumps static) (pkt : InPacket) (he : ownRules docNames k' = []) :
    inputVerdict docNames k static pkt = .accept ∨ inputVerdict docNames k static pkt = inputVerdict docNames k' static pkt := by
  have h' : ownVerdict docNames k' pkt = none := by simp [ownVerdict, he]
  rw [inputVerdict_eq k hs, inputVerdict_eq k' hs, h']
  split
  · exact .inl rfl
  · split
    · exact .inr rfl
    · split
      · exact .inl rfl
      · split
        · exact .inl rfl
        · cases staticVerdict static pkt with
          | some v => exact .inr rfl
          | none =>
            simp only
            split
            · exact .inl rfl
            · exact .inr (by simp)

/-- **C85** (nothing but TCP and UDP). Whatever has happened since its start, letmeinfwd does not change what becomes of packets of other protocols. -/
theorem C85_other_protocols (conf : Config) (hn : ChainOf conf docNames) (k0 : Kernel) (ok0 : Bool) (s0 : FwdState) (h0 : fwdStart conf k0 ok0 = some s0)
    (ops : List FwdOp) (hf : Fair conf docNames s0 ops) (static : List BaseRule) (hs : NoJumps static) (pkt : InPacket) (hp : flow pkt = none)
    (k' : Kernel) (he : ownRules docNames k' = []) :
    inputVerdict docNames (fwdRun conf s0 ops).2.kernel static pkt = inputVerdict docNames k' static pkt := by
  obtain ⟨hp0, n', hn', hi⟩ := fwdStart_inv h0
  obtain rfl := chainOf_unique hn hn'
  obtain ⟨h1, _, h3, h4⟩ := inv_running hi hp0
  have hempty : s0.fw.leases = [] := by
    cases hl : s0.fw.leases with
    | nil => rfl
    | cons e l =>
      have := (h4 e.1.1 e.1.2 e.2.timeout).2 ⟨e.2, by rw [hl]; simp, rfl⟩
      cases this
  have ho : OriginInv conf docNames s0 [] := origin_of_chainOk (ph := s0.phase) h1 h3 (by rw [hempty]; simp)
  have hrules := (origin_run hn hi ho ops hf).rules
  generalize (fwdRun conf s0 ops).2.kernel = k at hrules
  have hproto : pkt.l4proto ≠ 6 ∧ pkt.l4proto ≠ 17 := by
    unfold flow at hp
    split at hp
    · cases hp
    · split at hp
      · cases hp
      · exact ⟨by assumption, by assumption⟩
  have hport : ∀ sp, stmtMatches pkt (statementMatchDport sp) = false := by
    intro sp
    cases sp <;> simp [statementMatchDport, stmtMatches, hproto.1, hproto.2]
  have htail : ∀ sp, stmtsAccept pkt [statementMatchDport sp, .accept] = false := by
    intro sp
    cases sp with
    | Tcp q =>
      have h := hport (.Tcp q)
      simp only [statementMatchDport] at h ⊢
      simp only [stmtsAccept, h, Bool.false_and]
    | Udp q =>
      have h := hport (.Udp q)
      simp only [statementMatchDport] at h ⊢
      simp only [stmtsAccept, h, Bool.false_and]
  have hno : ∀ c ∈ ownContents docNames k, stmtsAccept pkt c.2 = false := by
    intro c hc
    rcases hrules c hc with h | ⟨a, lp, _, _, h⟩
    · unfold ctrlContents at h
      rcases List.mem_append.1 h with h | h
      · split at h
        · simp only [List.mem_singleton] at h; subst h; exact htail _
        · cases h
      · split at h
        · simp only [List.mem_singleton] at h; subst h; exact htail _
        · cases h
    · obtain ⟨sp, _, rfl⟩ := List.mem_map.1 h
      simp only [leaseContent]
      unfold saddrStmts
      split
      · rename_i s hss
        have : ∃ a b, s = .matchSaddr a b := by
          rw [show docNames.family = NfFamily.INet from rfl] at hss
          cases a with
          | v4 x => cases hss; exact ⟨_, _, rfl⟩
          | v6 x =>
            unfold statementMatchSaddr at hss
            cases hx : toIpv4Mapped x with
            | none => simp only [hx] at hss; cases hss; exact ⟨_, _, rfl⟩
            | some y => simp only [hx] at hss; cases hss; exact ⟨_, _, rfl⟩
        obtain ⟨x, y, rfl⟩ := this
        simp [stmtsAccept, htail]
      · exact htail _
  have hown : ownVerdict docNames k pkt = none := by
    unfold ownVerdict
    rw [if_neg]
    intro h
    rw [Bool.and_eq_true, List.any_eq_true] at h
    obtain ⟨_, r, hr, ha⟩ := h
    have := hno r.content (List.mem_map.2 ⟨r, hr, rfl⟩)
    rw [show r.content.2 = r.expr from rfl] at this
    rw [this] at ha
    cases ha
  have h' : ownVerdict docNames k' pkt = none := by simp [ownVerdict, he]
  rw [inputVerdict_eq k hs, inputVerdict_eq k' hs, h', hown]

/-! ## Concrete cases -/

/-- A static rule (`meta l4proto 132 accept`, SCTP). -/
def exampleStatic : List BaseRule := [⟨[.metaL4proto 132], .verdict .accept⟩]

/-- A packet opening an SSH connection. -/
def sshPacket : InPacket := { src := examplePeer, iif := "eth0".toList, ct := .new, l4proto := 6, dport := 22 }

example : ChainOf fwConf docNames ∧ fwdStart fwConf fwKernel true = some fwStarted ∧ NoJumps exampleStatic ∧ Undecided exampleStatic sshPacket ∧
    flow sshPacket = some ⟨examplePeer, .tcp, 22⟩ :=
  ⟨⟨by decide, rfl, rfl, by decide, by decide⟩, fwStarted_ok, by simp [NoJumps, exampleStatic], ⟨by decide, .inl rfl, rfl⟩, rfl⟩

/-- Before the knock: rejected. After it: accepted. When the lease has expired: rejected again, but the connection stays. -/
example :
    let knock : List FwdOp := [.request (.msg (FwMessage.newOpen examplePeer .Tcp 22)) 5 true]
    let later : List FwdOp := knock ++ [.maintain (1000 * second) { listOk := true, deleteOk := true, rebuildOk := true, afterList := id, beforeRebuild := id }]
    inputVerdict docNames fwStarted.kernel exampleStatic sshPacket = .reject ∧
    inputVerdict docNames (fwdRun fwConf fwStarted knock).2.kernel exampleStatic sshPacket = .accept ∧
    inputVerdict docNames (fwdRun fwConf fwStarted knock).2.kernel exampleStatic { sshPacket with l4proto := 17 } = .drop ∧
    inputVerdict docNames (fwdRun fwConf fwStarted later).2.kernel exampleStatic sshPacket = .reject ∧
    inputVerdict docNames (fwdRun fwConf fwStarted later).2.kernel exampleStatic { sshPacket with ct := .established } = .accept ∧
    inputVerdict docNames fwStarted.kernel exampleStatic { sshPacket with l4proto := 132 } = .accept ∧
    inputVerdict docNames fwStarted.kernel exampleStatic { sshPacket with dport := 5800 } = .accept ∧
    inputVerdict docNames (fwdRun fwConf fwStarted knock).2.kernel exampleStatic { sshPacket with ct := .invalid } = .drop := by
  decide +kernel

end Letmein.Props
