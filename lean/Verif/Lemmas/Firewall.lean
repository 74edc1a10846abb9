import Verif.Lemmas.Text
import Verif.Lemmas.Ip
import Verif.Spec.Firewall

/-!
# Lemmas about the firewall model
-/

namespace Letmein
open Spec

/-! ### Generic -/

theorem own_iff (n : NftNames) (r : KRule) : decide (Own n r) = r.inChain n.family n.table n.chainInput := by
  rw [Bool.eq_iff_iff, decide_eq_true_iff]
  simp [Own, KRule.inChain, and_assoc]

theorem ownRules_eq (n : NftNames) (k : Kernel) : ownRules n k = k.rules.filter (fun r => r.inChain n.family n.table n.chainInput) := by
  simp only [ownRules, own_iff]

theorem foreignRules_eq (n : NftNames) (k : Kernel) : foreignRules n k = k.rules.filter (fun r => !r.inChain n.family n.table n.chainInput) := by
  simp only [foreignRules, decide_not, own_iff]


theorem collect_ok {α β : Type} {f : α → R β} {g : α → β} {l : List α} (h : ∀ a ∈ l, f a = .ok (g a)) :
    collect f l = .ok (l.map g) := by
  induction l with
  | nil => rfl
  | cons a l ih => simp [collect, h a (by simp), ih (fun a ha => h a (by simp [ha]))]

theorem collect_not_panic {α β : Type} {f : α → R β} {l : List α} (h : ∀ a ∈ l, f a ≠ .panic) :
    collect f l ≠ .panic := by
  induction l with
  | nil => simp [collect]
  | cons a l ih =>
    have ih := ih (fun a ha => h a (by simp [ha]))
    have ha := h a (by simp)
    cases hfa : f a with
    | ok b =>
      cases hl : collect f l with
      | ok bs => simp [collect, hfa, hl]
      | err => simp [collect, hfa, hl]
      | panic => exact absurd hl ih
    | err => simp [collect, hfa]
    | panic => exact absurd hfa ha

theorem collect_inv {α β : Type} {f : α → R β} {l : List α} {r : List β} (h : collect f l = .ok r) :
    l.map f = r.map R.ok := by
  induction l generalizing r with
  | nil => simp [collect] at h; subst h; rfl
  | cons a l ih =>
    cases hfa : f a with
    | ok b =>
      cases hl : collect f l with
      | ok bs => simp [collect, hfa, hl] at h; subst h; simp [hfa, ih hl]
      | err => simp [collect, hfa, hl] at h
      | panic => simp [collect, hfa, hl] at h
    | err => simp [collect, hfa] at h
    | panic => simp [collect, hfa] at h

/-! ### Names -/

theorem names_get_iff {conf : Config} {n : NftNames} : NftNames.get conf = .ok n ↔ ChainOf conf n := by
  constructor
  · intro h
    unfold NftNames.get rensure at h
    by_cases h4 : conf.nftTable = [] <;> by_cases h5 : conf.nftChainInput = [] <;>
      simp only [h4, h5, ne_eq, not_true_eq_false, not_false_eq_true, decide_true, decide_false, if_true, if_false,
      Bool.false_eq_true, R.bind_ok, R.bind_err] at h <;>
      split at h <;> (try split at h) <;> (try split at h) <;> simp only [R.bind_ok, R.bind_err, reduceCtorEq, R.ok.injEq] at h <;> subst h <;>
      exact ⟨by simp only [familyName]; assumption, rfl, rfl, h4, h5⟩
  · intro ⟨h1, h2, h3, h4, h5⟩
    unfold NftNames.get rensure
    rw [h1, h2, h3]
    obtain ⟨f, t, c⟩ := n
    cases f <;> simp [familyName] at h4 h5 ⊢ <;> simp [h4, h5]

theorem names_get_not_panic (conf : Config) : NftNames.get conf ≠ .panic := by
  unfold NftNames.get rensure
  by_cases h4 : conf.nftTable = [] <;> by_cases h5 : conf.nftChainInput = [] <;>
    simp only [h4, h5, ne_eq, not_true_eq_false, not_false_eq_true, decide_true, decide_false, if_true, if_false,
      Bool.false_eq_true, R.bind_ok, R.bind_err] <;>
    split <;> (try split) <;> (try split) <;> simp

/-! ### Rule contents -/

/-- Comment and statements of a rule. -/
abbrev Content := Option Str × List Stmt

/-- Content of a kernel rule. -/
def KRule.content (r : KRule) : Content := (r.comment, r.expr)

/-- Contents of the chain's rules. -/
def ownContents (n : NftNames) (k : Kernel) : List Content := (ownRules n k).map KRule.content

/-- The address family can be matched in the chain. -/
def Supported (f : NfFamily) (a : IpAddr) : Prop := ∃ s, statementMatchSaddr f a = .ok s

/-- The source address statement. -/
def saddrStmts (f : NfFamily) (a : IpAddr) : List Stmt :=
  match statementMatchSaddr f a with
  | .ok s => [s]
  | _ => []

/-- Content of a lease rule. -/
def leaseContent (f : NfFamily) (a : IpAddr) (p : SinglePort) : Content :=
  (some (genRuleComment (some a) p), saddrStmts f a ++ [statementMatchDport p, .accept])

/-- Content of a control port rule. -/
def ctrlContent (p : SinglePort) : Content := (some (genRuleComment none p), [statementMatchDport p, .accept])

/-- Contents of the control port rules. -/
def ctrlContents (conf : Config) : List Content :=
  (if conf.port.tcp then [ctrlContent (.Tcp conf.port.port)] else []) ++
  (if conf.port.udp then [ctrlContent (.Udp conf.port.port)] else [])

/-- Contents of the rules of a lease. -/
def leaseContents (f : NfFamily) (l : Lease) : List Content := l.port.singles.map (leaseContent f l.addr)

/-- The command adding a rule with this content. -/
def addCmd (n : NftNames) (c : Content) : NfCmd :=
  .add { family := n.family, table := n.table, chain := n.chainInput, expr := c.2, comment := c.1 }

theorem statementMatchSaddr_not_panic (f : NfFamily) (a : IpAddr) : statementMatchSaddr f a ≠ .panic := by
  unfold statementMatchSaddr
  cases a with
  | v4 a => cases f <;> simp
  | v6 a =>
    cases h : toIpv4Mapped a <;> cases f <;> simp [h]

theorem genAddLeaseCmd_none {conf : Config} {n : NftNames} (hn : ChainOf conf n) (p : SinglePort) :
    genAddLeaseCmd conf none p = .ok (addCmd n (ctrlContent p)) := by
  simp [genAddLeaseCmd, names_get_iff.2 hn, addCmd, ctrlContent]

theorem genAddLeaseCmd_some {conf : Config} {n : NftNames} (hn : ChainOf conf n) {a : IpAddr}
    (hs : Supported n.family a) (p : SinglePort) :
    genAddLeaseCmd conf (some a) p = .ok (addCmd n (leaseContent n.family a p)) := by
  obtain ⟨s, hs⟩ := hs
  simp [genAddLeaseCmd, names_get_iff.2 hn, addCmd, leaseContent, hs, saddrStmts]

theorem genAddLeaseCmd_unsupported {conf : Config} {n : NftNames} (hn : ChainOf conf n) {a : IpAddr}
    (hs : ¬ Supported n.family a) (p : SinglePort) : genAddLeaseCmd conf (some a) p = .err := by
  cases h : statementMatchSaddr n.family a with
  | ok s => exact absurd ⟨s, h⟩ hs
  | err => simp [genAddLeaseCmd, names_get_iff.2 hn, h]
  | panic => exact absurd h (statementMatchSaddr_not_panic _ _)

theorem singles_ne_nil (p : LeasePort) : p.singles ≠ [] := by cases p <;> simp [LeasePort.singles]

theorem genAddLeaseCmds_ok {conf : Config} {n : NftNames} (hn : ChainOf conf n) {l : Lease}
    (hs : Supported n.family l.addr) :
    genAddLeaseCmds conf l = .ok ((leaseContents n.family l).map (addCmd n)) := by
  unfold genAddLeaseCmds leaseContents
  rw [collect_ok (fun p _ => genAddLeaseCmd_some hn hs p), List.map_map]
  rfl

theorem genAddLeaseCmds_err {conf : Config} {n : NftNames} (hn : ChainOf conf n) {l : Lease}
    (hs : ¬ Supported n.family l.addr) : genAddLeaseCmds conf l = .err := by
  unfold genAddLeaseCmds
  cases h : l.port.singles with
  | nil => exact absurd h (singles_ne_nil _)
  | cons p ps => simp [collect, genAddLeaseCmd_unsupported hn hs]

theorem genCtrlCmds_ok {conf : Config} {n : NftNames} (hn : ChainOf conf n) :
    genCtrlCmds conf = .ok ((ctrlContents conf).map (addCmd n)) := by
  unfold genCtrlCmds ctrlContents
  cases conf.port.tcp <;> cases conf.port.udp <;> simp [collect, genAddLeaseCmd_none hn]

theorem rebuildCmds_ok {conf : Config} {n : NftNames} (hn : ChainOf conf n) {fw : NftFirewall}
    (hs : ∀ e ∈ fw.leases, Supported n.family e.2.addr) (hd : fw.shutdown = false) :
    rebuildCmds conf fw = .ok (.flush n.family n.table n.chainInput ::
      (ctrlContents conf ++ fw.leases.flatMap (fun e => leaseContents n.family e.2)).map (addCmd n)) := by
  unfold rebuildCmds
  rw [names_get_iff.2 hn, genCtrlCmds_ok hn, collect_ok (fun e he => genAddLeaseCmds_ok hn (hs e he))]
  simp [hd, List.flatMap, Function.comp_def, List.map_flatten]

theorem rebuildCmds_shutdown {conf : Config} {n : NftNames} (hn : ChainOf conf n) {fw : NftFirewall}
    (hd : fw.shutdown = true) : rebuildCmds conf fw = .ok [.flush n.family n.table n.chainInput] := by
  unfold rebuildCmds
  rw [names_get_iff.2 hn]
  simp [hd]

/-! ### Kernel -/

/-- Handles of the chain's rules are distinct and were handed out by the generator. -/
structure KernelOk (n : NftNames) (k : Kernel) : Prop where
  nodup : ((ownRules n k).map (·.handle)).Nodup
  le : ∀ r ∈ ownRules n k, r.handle ≤ k.gen

theorem KernelOk.of_unchanged {n : NftNames} {k k' : Kernel} (h : KernelOk n k) (u : OwnUnchanged n k k') :
    KernelOk n k' := by
  refine ⟨by rw [u.own]; exact h.nodup, fun r hr => ?_⟩
  rw [u.own] at hr
  exact Nat.le_trans (h.le r hr) u.gen

theorem applyCmds_adds {n : NftNames} {k : Kernel} (cs : List Content) (hk : KernelOk n k) :
    ∃ k', applyCmds k (cs.map (addCmd n)) = some k' ∧ ownContents n k' = ownContents n k ++ cs ∧
      foreignRules n k' = foreignRules n k ∧ KernelOk n k' := by
  induction cs generalizing k with
  | nil => exact ⟨k, rfl, by simp, rfl, hk⟩
  | cons c cs ih =>
    let r : KRule := { family := n.family, table := n.table, chain := n.chainInput, handle := k.gen + 1, expr := c.2, comment := c.1 }
    let k1 : Kernel := { rules := k.rules ++ [r], gen := k.gen + 1 }
    have hr : r.inChain n.family n.table n.chainInput = true := by simp [KRule.inChain, r]
    have hown : ownRules n k1 = ownRules n k ++ [r] := by
      simp [ownRules_eq, k1, List.filter_append, hr]
    have hk1 : KernelOk n k1 := by
      constructor
      · rw [hown, List.map_append, List.nodup_append]
        refine ⟨hk.nodup, by simp, ?_⟩
        intro a ha b hb
        obtain ⟨x, hx, rfl⟩ := List.mem_map.1 ha
        simp at hb
        subst hb
        have := hk.le x hx
        simp only [r]
        omega
      · intro x hx
        rw [hown] at hx
        simp only [List.mem_append, List.mem_singleton] at hx
        rcases hx with hx | rfl
        · have := hk.le x hx; show x.handle ≤ k.gen + 1; omega
        · exact Nat.le_refl _
    obtain ⟨k', h1, h2, h3, h4⟩ := ih hk1
    refine ⟨k', ?_, ?_, ?_, h4⟩
    · simpa [applyCmds, applyCmd, addCmd] using h1
    · rw [h2, ownContents, hown]; simp [ownContents, KRule.content, r]
    · rw [h3]; simp [foreignRules_eq, k1, List.filter_append, hr]

/-- The kernel after flushing the chain. -/
def flushed (n : NftNames) (k : Kernel) : Kernel :=
  { k with rules := k.rules.filter (fun r => !r.inChain n.family n.table n.chainInput) }

theorem flushed_own (n : NftNames) (k : Kernel) : ownRules n (flushed n k) = [] := by
  simp [ownRules_eq, flushed, List.filter_filter]

theorem flushed_foreign (n : NftNames) (k : Kernel) : foreignRules n (flushed n k) = foreignRules n k := by
  simp [foreignRules_eq, flushed, List.filter_filter]

theorem flushed_ok (n : NftNames) (k : Kernel) : KernelOk n (flushed n k) := by
  constructor <;> simp [flushed_own]

/-- A rebuild replaces the chain and nothing else. -/
theorem rebuild_apply {n : NftNames} (k : Kernel) (cs : List Content) :
    ∃ k', applyCmds k (.flush n.family n.table n.chainInput :: cs.map (addCmd n)) = some k' ∧ ownContents n k' = cs ∧
      foreignRules n k' = foreignRules n k ∧ KernelOk n k' := by
  obtain ⟨k', h1, h2, h3, h4⟩ := applyCmds_adds cs (flushed_ok n k)
  refine ⟨k', h1, ?_, ?_, h4⟩
  · rw [h2, ownContents, flushed_own]; rfl
  · rw [h3, flushed_foreign]

/-- The command deleting a rule of the chain. -/
def delCmd (n : NftNames) (r : KRule) : NfCmd := .delete n.family n.table n.chainInput r.handle

theorem perm_filter_handle {l : List KRule} (hn : (l.map (·.handle)).Nodup) {r : KRule} (hr : r ∈ l) :
    l.Perm (r :: l.filter (fun x => !(decide (x.handle = r.handle)))) := by
  induction l with
  | nil => cases hr
  | cons x l ih =>
    simp only [List.map_cons, List.nodup_cons] at hn
    rcases List.mem_cons.1 hr with rfl | hr
    · rw [List.filter_cons_of_neg (by simp), List.filter_eq_self.2]
      intro y hy
      have : y.handle ≠ r.handle := by
        intro he
        exact hn.1 (he ▸ List.mem_map_of_mem (f := (·.handle)) hy)
      simpa using this
    · have hx : x.handle ≠ r.handle := by
        intro he
        exact hn.1 (he ▸ List.mem_map_of_mem (f := (·.handle)) hr)
      rw [List.filter_cons_of_pos (by simpa using hx)]
      exact ((ih hn.2 hr).cons x).trans (List.Perm.swap _ _ _)

theorem applyCmd_delete {n : NftNames} {k k' : Kernel} {h : Nat} (hk : KernelOk n k)
    (ha : applyCmd k (.delete n.family n.table n.chainInput h) = some k') :
    (∃ r ∈ ownRules n k, r.handle = h ∧ (ownRules n k).Perm (r :: ownRules n k')) ∧
      foreignRules n k' = foreignRules n k ∧ KernelOk n k' := by
  unfold applyCmd at ha
  simp only at ha
  split at ha
  · rename_i hany
    injection ha with ha
    obtain ⟨r, hr, hrp⟩ := List.any_eq_true.1 hany
    simp only [Bool.and_eq_true, decide_eq_true_eq] at hrp
    have hrown : r ∈ ownRules n k := List.mem_filter.2 ⟨hr, (own_iff n r).trans hrp.1⟩
    have hown : ownRules n k' = (ownRules n k).filter (fun x => !(decide (x.handle = h))) := by
      rw [← ha]
      simp only [ownRules_eq, List.filter_filter]
      apply List.filter_congr
      intro x _
      cases x.inChain n.family n.table n.chainInput <;> simp
    refine ⟨⟨r, hrown, hrp.2, ?_⟩, ?_, ?_⟩
    · rw [hown, ← hrp.2]; exact perm_filter_handle hk.nodup hrown
    · rw [← ha]
      simp only [foreignRules_eq, List.filter_filter]
      apply List.filter_congr
      intro x _
      cases x.inChain n.family n.table n.chainInput <;> simp
    · constructor
      · rw [hown]
        exact List.Nodup.sublist (List.Sublist.map _ List.filter_sublist) hk.nodup
      · intro x hx
        rw [hown] at hx
        rw [← ha]
        exact hk.le x (List.mem_filter.1 hx).1
  · cases ha

theorem eq_of_handle {l : List KRule} (hn : (l.map (·.handle)).Nodup) {a b : KRule} (ha : a ∈ l) (hb : b ∈ l)
    (h : a.handle = b.handle) : a = b := by
  induction l with
  | nil => cases ha
  | cons x l ih =>
    simp only [List.map_cons, List.nodup_cons] at hn
    rcases List.mem_cons.1 ha with ha' | ha' <;> rcases List.mem_cons.1 hb with hb' | hb'
    · rw [ha', hb']
    · exact absurd (ha' ▸ h ▸ List.mem_map_of_mem (f := (·.handle)) hb') hn.1
    · exact absurd (hb' ▸ h ▸ List.mem_map_of_mem (f := (·.handle)) ha') hn.1
    · exact ih hn.2 ha' hb'

/-- A batch of deletions removes exactly the rules it was generated for. -/
theorem applyCmds_deletes {n : NftNames} {k k' : Kernel} {base rs : List KRule}
    (hb : (base.map (·.handle)).Nodup) (hrs : ∀ r ∈ rs, r ∈ base) (hsub : ∀ r ∈ ownRules n k, r ∈ base)
    (hk : KernelOk n k) (ha : applyCmds k (rs.map (delCmd n)) = some k') :
    (ownRules n k).Perm (rs ++ ownRules n k') ∧ foreignRules n k' = foreignRules n k ∧ KernelOk n k' := by
  induction rs generalizing k with
  | nil => simp [applyCmds] at ha; subst ha; exact ⟨by simp, rfl, hk⟩
  | cons r rs ih =>
    rw [List.map_cons, applyCmds] at ha
    split at ha
    · rename_i k1 h1
      obtain ⟨⟨r1, hr1, hh, hp⟩, hf, hk1⟩ := applyCmd_delete hk h1
      have hrr : r1 = r := eq_of_handle hb (hsub r1 hr1) (hrs r (by simp)) hh
      subst hrr
      have hsub1 : ∀ x ∈ ownRules n k1, x ∈ base := fun x hx => hsub x (hp.symm.subset (by simp [hx]))
      obtain ⟨h2, h3, h4⟩ := ih (fun x hx => hrs x (by simp [hx])) hsub1 hk1 ha
      exact ⟨hp.trans (h2.cons _), h3.trans hf, h4⟩
    · cases ha

theorem applyBatch_cases (k : Kernel) (cmds : List NfCmd) (ok : Bool) :
    (∃ k', applyCmds k cmds = some k' ∧ ok = true ∧ applyBatch k cmds ok = (.ok (), k')) ∨
    applyBatch k cmds ok = (.err, k) := by
  unfold applyBatch
  cases ok with
  | false => simp
  | true => cases h : applyCmds k cmds <;> simp

/-! ### Comments identify rules -/

theorem singlePort_show_inj {p q : SinglePort} (h : p.show = q.show) : p = q := by
  have key : ∀ (a b : UInt16) (s t : Str), '/' ∉ s → '/' ∉ t →
      showNat a.toNat ++ '/' :: s = showNat b.toNat ++ '/' :: t → a = b ∧ s = t := by
    intro a b s t hs ht he
    have := congrArg (splitOn '/') he
    rw [splitOn_append_sep (not_mem_showNat (by simp) _), splitOn_append_sep (not_mem_showNat (by simp) _),
      splitOn_of_not_mem hs, splitOn_of_not_mem ht] at this
    simp at this
    exact ⟨UInt16.toNat_inj.1 (showNat_inj this.1), this.2⟩
  cases p <;> cases q <;> simp only [SinglePort.show] at h <;>
    have := key _ _ _ _ (by decide) (by decide) h
  · rw [this.1]
  · exact absurd this.2 (by decide)
  · exact absurd this.2 (by decide)
  · rw [this.1]

theorem genRuleComment_inj {a b : Option IpAddr} {p q : SinglePort} (h : genRuleComment a p = genRuleComment b q) :
    a = b ∧ p = q := by
  let t : Option IpAddr → Str := fun a => match a with | some a => showIp a | none => "any".toList
  have hform : ∀ (a : Option IpAddr) (p : SinglePort),
      genRuleComment a p = t a ++ '/' :: (p.show ++ "/accept/letmein/GENERATED".toList) := by
    intro a p
    cases a <;> simp [genRuleComment, t]
  have hslash : ∀ a, '/' ∉ t a := by
    intro a
    cases a with
    | none => show '/' ∉ "any".toList; decide
    | some a => exact slash_not_mem_showIp a
  have hany : ∀ x : IpAddr, showIp x ≠ "any".toList := by
    intro x he
    cases x with
    | v4 y => have := dot_mem_showIpv4 y; rw [show showIpv4 y = "any".toList from he] at this; revert this; decide
    | v6 y => have := colon_mem_showIpv6 y; rw [show showIpv6 y = "any".toList from he] at this; revert this; decide
  have hs := congrArg (splitOn '/') h
  rw [hform, hform, splitOn_append_sep (hslash _), splitOn_append_sep (hslash _)] at hs
  injection hs with h1 h2
  constructor
  · cases a <;> cases b
    · rfl
    · exact absurd h1.symm (hany _)
    · exact absurd h1 (hany _)
    · rw [showIp_inj h1]
  · have h3 := congrArg (joinWith '/') h2
    rw [joinWith_splitOn, joinWith_splitOn] at h3
    exact singlePort_show_inj (List.append_cancel_right h3)

end Letmein
