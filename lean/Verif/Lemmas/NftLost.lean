import Verif.Model.NftLost
import Verif.Lemmas.ConfNum
import Verif.Props.FwTasks

/-!
# Rules that somebody asked for, with an nft that may report wrongly
-/

namespace Letmein.Props
open Letmein Prog Spec

/-! ## Rules and leases that somebody asked for -/

/-- The rule is one of the control port or one for an address and port of `A`. -/
def RuleOk (conf : Config) (n : NftNames) (A : IpAddr → LeasePort → Prop) (c : Content) : Prop :=
  c ∈ ctrlContents conf ∨ ∃ a p, A a p ∧ Supported n.family a ∧ c ∈ leaseContents n.family ⟨a, p, 0⟩

/-- The command adds such rules only. -/
def CmdOk (conf : Config) (n : NftNames) (A : IpAddr → LeasePort → Prop) (c : NfCmd) : Prop :=
  ∀ r, c = .add r → RuleOk conf n A (r.comment, r.expr)

/-- All leases were asked for. -/
def FwOk (A : IpAddr → LeasePort → Prop) (fw : NftFirewall) : Prop := ∀ e ∈ fw.leases, A e.2.addr e.2.port

/-- Whatever `nft` answers, the program adds only such rules and ends with such leases. -/
inductive ProgOk (conf : Config) (n : NftNames) (A : IpAddr → LeasePort → Prop) : LProg → Prop where
  | ret (r fw) : FwOk A fw → ProgOk conf n A (.ret r fw)
  | list (k) : (∀ x, ProgOk conf n A (k x)) → ProgOk conf n A (.list k)
  | apply (cmds k) : (∀ c ∈ cmds, CmdOk conf n A c) → (∀ ok, ProgOk conf n A (k ok)) → ProgOk conf n A (.apply cmds k)

theorem applyCmds_ruleOk {conf : Config} {n : NftNames} {A : IpAddr → LeasePort → Prop} {k k' : Kernel} {cmds : List NfCmd}
    (h : applyCmds k cmds = some k') (hc : ∀ c ∈ cmds, CmdOk conf n A c) (hk : ∀ c ∈ ownContents n k, RuleOk conf n A c) :
    ∀ c ∈ ownContents n k', RuleOk conf n A c := by
  induction cmds generalizing k with
  | nil => cases h; exact hk
  | cons cmd cmds ih =>
    simp only [applyCmds] at h
    split at h
    · rename_i k1 h1
      refine ih h (fun c hcm => hc c (by simp [hcm])) ?_
      intro c hcm
      cases cmd with
      | add r =>
        simp only [applyCmd, Option.some.injEq] at h1
        subst h1
        simp only [ownContents, ownRules, List.filter_append, List.map_append, List.mem_append] at hcm
        rcases hcm with hcm | hcm
        · exact hk c hcm
        · obtain ⟨r', hr', rfl⟩ := List.mem_map.1 hcm
          have := (List.mem_filter.1 hr').1
          simp only [List.mem_singleton] at this
          subst this
          exact hc _ (by simp) r rfl
      | delete f t ch hd =>
        simp only [applyCmd] at h1
        split at h1
        · cases h1
          obtain ⟨r', hr', rfl⟩ := List.mem_map.1 hcm
          obtain ⟨h2, h3⟩ := List.mem_filter.1 hr'
          exact hk _ (List.mem_map.2 ⟨r', List.mem_filter.2 ⟨(List.mem_filter.1 h2).1, h3⟩, rfl⟩)
        · cases h1
      | flush f t ch =>
        simp only [applyCmd, Option.some.injEq] at h1
        subst h1
        obtain ⟨r', hr', rfl⟩ := List.mem_map.1 hcm
        obtain ⟨h2, h3⟩ := List.mem_filter.1 hr'
        exact hk _ (List.mem_map.2 ⟨r', List.mem_filter.2 ⟨(List.mem_filter.1 h2).1, h3⟩, rfl⟩)
    · cases h

theorem genAddLeaseCmds_cmdOk {conf : Config} {n : NftNames} (hn : ChainOf conf n) {A : IpAddr → LeasePort → Prop} {l : Lease} (ha : A l.addr l.port)
    {cmds : List NfCmd} (h : genAddLeaseCmds conf l = .ok cmds) : ∀ c ∈ cmds, CmdOk conf n A c := by
  by_cases hs : Supported n.family l.addr
  · rw [genAddLeaseCmds_ok hn hs] at h
    cases h
    intro c hc r hr
    obtain ⟨x, hx, rfl⟩ := List.mem_map.1 hc
    simp only [addCmd, NfCmd.add.injEq] at hr
    subst hr
    exact .inr ⟨l.addr, l.port, ha, hs, hx⟩
  · rw [genAddLeaseCmds_err hn hs] at h
    cases h

theorem rebuildCmds_cmdOk {conf : Config} {n : NftNames} (hn : ChainOf conf n) {A : IpAddr → LeasePort → Prop} {fw : NftFirewall} (hf : FwOk A fw)
    {cmds : List NfCmd} (h : rebuildCmds conf fw = .ok cmds) : ∀ c ∈ cmds, CmdOk conf n A c := by
  have hfl : CmdOk conf n A (.flush n.family n.table n.chainInput) := fun r hr => by cases hr
  cases hd : fw.shutdown with
  | true =>
    rw [rebuildCmds_shutdown hn hd] at h
    cases h
    intro c hc
    simp only [List.mem_singleton] at hc
    subst hc
    exact hfl
  | false =>
    have hs : ∀ e ∈ fw.leases, Supported n.family e.2.addr := by
      unfold rebuildCmds at h
      rw [names_get_iff.2 hn, genCtrlCmds_ok hn] at h
      simp only [hd, R.bind_ok, Bool.not_false, if_true] at h
      obtain ⟨ls, hl, _⟩ := R.bind_eq_ok.1 h
      have := collect_inv hl
      intro e he
      by_cases hs : Supported n.family e.2.addr
      · exact hs
      · have h1 : genAddLeaseCmds conf e.2 ∈ fw.leases.map (fun e => genAddLeaseCmds conf e.2) := List.mem_map.2 ⟨e, he, rfl⟩
        rw [this, genAddLeaseCmds_err hn hs] at h1
        obtain ⟨_, _, h2⟩ := List.mem_map.1 h1
        cases h2
    rw [rebuildCmds_ok hn hs hd] at h
    cases h
    intro c hc
    rcases List.mem_cons.1 hc with rfl | hc
    · exact hfl
    · obtain ⟨x, hx, rfl⟩ := List.mem_map.1 hc
      intro r hr
      simp only [addCmd, NfCmd.add.injEq] at hr
      subst hr
      rcases List.mem_append.1 hx with hx | hx
      · exact .inl hx
      · obtain ⟨e, he, hx⟩ := List.mem_flatMap.1 hx
        exact .inr ⟨e.2.addr, e.2.port, hf e he, hs e he, hx⟩

theorem rebuildP_progOk {conf : Config} {n : NftNames} (hn : ChainOf conf n) {A : IpAddr → LeasePort → Prop} {fw : NftFirewall} (hf : FwOk A fw)
    {g : R Unit → LProg} (hg : ∀ r, ProgOk conf n A (g r)) : ProgOk conf n A (rebuildP conf fw g) := by
  unfold rebuildP
  split
  · rename_i cmds h
    exact .apply _ _ (rebuildCmds_cmdOk hn hf h) fun ok => hg _
  · exact hg _
  · exact hg _

theorem shutdownP_progOk {conf : Config} {n : NftNames} (hn : ChainOf conf n) {A : IpAddr → LeasePort → Prop} {fw : NftFirewall} (hf : FwOk A fw) :
    ProgOk conf n A (shutdownP conf fw) := by
  unfold shutdownP
  have h0 : FwOk A { leases := [], shutdown := true } := fun e he => by cases he
  split
  · exact .ret _ _ hf
  · exact rebuildP_progOk hn h0 fun r => .ret _ _ h0

theorem maintainP_progOk {conf : Config} {n : NftNames} (hn : ChainOf conf n) {A : IpAddr → LeasePort → Prop} {fw : NftFirewall} (hf : FwOk A fw) (t : Nat) :
    ProgOk conf n A (maintainP conf fw t) := by
  unfold maintainP
  have h0 : FwOk A { fw with leases := (pruneAllLeaseTimeouts t fw.leases).1 } := by
    intro e he
    refine hf e ?_
    simp only [pruneAllLeaseTimeouts] at he
    exact (List.mem_filter.1 he).1
  have hrb : ProgOk conf n A (rebuildP conf { fw with leases := (pruneAllLeaseTimeouts t fw.leases).1 } fun r =>
      .ret r { fw with leases := (pruneAllLeaseTimeouts t fw.leases).1 }) := rebuildP_progOk hn h0 fun r => .ret _ _ h0
  split
  · exact .ret _ _ hf
  · simp only
    split
    · exact .ret _ _ h0
    · unfold removeLeasesP
      split
      · exact .ret _ _ h0
      · refine .list _ fun x => ?_
        cases x with
        | none => exact hrb
        | some rules =>
          simp only
          split
          · rename_i cmds hc
            refine .apply _ _ ?_ fun ok => ?_
            · intro c hcm r hr
              subst hr
              obtain ⟨cs, hcs, hcm⟩ := List.mem_flatten.1 hcm
              have h1 := collect_inv hc
              have h2 : R.ok cs ∈ cmds.map R.ok := List.mem_map.2 ⟨cs, hcs, rfl⟩
              rw [← h1] at h2
              obtain ⟨l, _, hl⟩ := List.mem_map.1 h2
              unfold genDeleteLeaseCmds at hl
              obtain ⟨_, _, hl⟩ := R.bind_eq_ok.1 hl
              have h3 := collect_inv hl
              have h4 : R.ok (NfCmd.add r) ∈ cs.map R.ok := List.mem_map.2 ⟨_, hcm, rfl⟩
              rw [← h3] at h4
              obtain ⟨p, _, hp⟩ := List.mem_map.1 h4
              obtain ⟨_, _, hp⟩ := R.bind_eq_ok.1 hp
              cases hp
            · cases ok
              · exact hrb
              · exact .ret _ _ h0
          · exact hrb
          · exact .ret _ _ h0

theorem lease_new_eq {conf : Config} {t : Nat} {addr : IpAddr} {port : LeasePort} {l : Lease} (h : Lease.new conf t addr port = .ok l) :
    l.addr = addr ∧ l.port = port := by
  unfold Lease.new at h
  obtain ⟨_, _, h⟩ := R.bind_eq_ok.1 h
  cases h
  exact ⟨rfl, rfl⟩

theorem openPortP_progOk {conf : Config} {n : NftNames} (hn : ChainOf conf n) {A : IpAddr → LeasePort → Prop} {fw : NftFirewall} (hf : FwOk A fw) (t : Nat)
    {addr : IpAddr} {port : LeasePort} (ha : A addr port) : ProgOk conf n A (openPortP conf fw t addr port) := by
  unfold openPortP
  split
  · exact .ret _ _ hf
  · simp only
    split
    · refine .ret _ _ fun e he => ?_
      simp only [leaseUpdate] at he
      obtain ⟨e', he', rfl⟩ := List.mem_map.1 he
      have := hf e' he'
      split <;> exact this
    · split
      · rename_i l hl
        obtain ⟨h1, h2⟩ := lease_new_eq hl
        have hal : A l.addr l.port := by rw [h1, h2]; exact ha
        have hf' : FwOk A { fw with leases := fw.leases ++ [((addr, port), l)] } := by
          intro e he
          rcases List.mem_append.1 he with he | he
          · exact hf e he
          · simp only [List.mem_singleton] at he
            subst he
            exact hal
        unfold addLeaseP
        split
        · rename_i cmds hc
          refine .apply _ _ (genAddLeaseCmds_cmdOk hn hal hc) fun ok => ?_
          cases ok
          · exact .ret _ _ hf
          · exact .ret _ _ hf'
        · exact .ret _ _ hf
        · exact .ret _ _ hf
      · exact .ret _ _ hf
      · exact .ret _ _ hf

/-! ## With more rules allowed -/

theorem RuleOk.mono {conf : Config} {n : NftNames} {A B : IpAddr → LeasePort → Prop} (h : ∀ a p, A a p → B a p) {c : Content} (hc : RuleOk conf n A c) :
    RuleOk conf n B c := by
  rcases hc with h1 | ⟨a, p, h1, h2⟩
  · exact .inl h1
  · exact .inr ⟨a, p, h a p h1, h2⟩

theorem FwOk.mono {A B : IpAddr → LeasePort → Prop} (h : ∀ a p, A a p → B a p) {fw : NftFirewall} (hf : FwOk A fw) : FwOk B fw :=
  fun e he => h _ _ (hf e he)

theorem ProgOk.mono {conf : Config} {n : NftNames} {A B : IpAddr → LeasePort → Prop} (h : ∀ a p, A a p → B a p) {q : LProg} (hq : ProgOk conf n A q) :
    ProgOk conf n B q := by
  induction hq with
  | ret r fw hf => exact .ret r fw (FwOk.mono h hf)
  | list k _ ih => exact .list k ih
  | apply cmds k hc _ ih => exact .apply cmds k (fun c hcm r hr => RuleOk.mono h (hc c hcm r hr)) ih

theorem ruleOk_accepts {conf : Config} {n : NftNames} {A : IpAddr → LeasePort → Prop} {k : Kernel} (hk : ∀ c ∈ ownContents n k, RuleOk conf n A c) {pkt : Packet}
    (hacc : chainAccepts n k pkt = true) : toControlPort conf pkt ∨ ∃ a p, A a p ∧ covers a p pkt := by
  rw [chainAccepts_contents, Bool.and_eq_true, List.any_eq_true] at hacc
  obtain ⟨hf, c, hc, hr⟩ := hacc
  rcases hk c hc with h | ⟨a, p, ha, hs, h⟩
  · exact .inl ((ctrlContents_accept conf pkt).1 (List.any_eq_true.2 ⟨c, h, hr⟩))
  · refine .inr ⟨a, p, ha, (leaseContents_accept (l := ⟨a, p, 0⟩) hs pkt).1 ?_⟩
    rw [hf, Bool.true_and]
    exact List.any_eq_true.2 ⟨c, h, hr⟩

theorem runNft_ruleOk {conf : Config} {n : NftNames} {A : IpAddr → LeasePort → Prop} {k : Kernel} {cmds : List NfCmd} {ok : Bool}
    (hc : ∀ c ∈ cmds, CmdOk conf n A c) (hk : ∀ c ∈ ownContents n k, RuleOk conf n A c) : ∀ c ∈ ownContents n (runNft k cmds ok).2, RuleOk conf n A c := by
  unfold runNft applyBatch
  cases ok with
  | false => exact hk
  | true =>
    simp only
    cases h : applyCmds k cmds with
    | none => exact hk
    | some k' => exact applyCmds_ruleOk h hc hk

theorem start_ruleOk {conf : Config} {n : NftNames} (hn : ChainOf conf n) {k0 : Kernel} {ok0 : Bool} {f : FwdState} (h0 : fwdStart conf k0 ok0 = some f)
    (A : IpAddr → LeasePort → Prop) : FwOk A f.fw ∧ ∀ c ∈ ownContents n f.kernel, RuleOk conf n A c := by
  obtain ⟨hp0, n', hn', hi⟩ := fwdStart_inv h0
  obtain rfl := chainOf_unique hn hn'
  obtain ⟨h1, _, h3, h4⟩ := inv_running hi hp0
  have hempty : f.fw.leases = [] := by
    cases hl : f.fw.leases with
    | nil => rfl
    | cons e l =>
      have := (h4 e.1.1 e.1.2 e.2.timeout).2 ⟨e.2, by rw [hl]; simp, rfl⟩
      cases this
  refine ⟨fun e he => (by rw [hempty] at he; cases he), fun c hc => ?_⟩
  have := h3.rules.subset hc
  rw [wanted, hempty, List.flatMap_nil, List.append_nil] at this
  exact .inl this

/-! ## Nothing unasked -/

/-- A connection that has got the lock or ended asked for it. -/
def AskedBy (conf : Config) (s : TSys) (a : IpAddr) (p : LeasePort) : Prop :=
  ∃ (id : Nat) (c : ConnTask), s.conns[id]? = some c ∧ (∀ a p, c.pc ≠ .waiting a p) ∧ fwdDecide conf c.rx = .openPort a p

/-- Connections that wait for the lock are to open a port. -/
def Waits (conf : Config) (s : TSys) : Prop :=
  ∀ (id : Nat) (c : ConnTask) (a : IpAddr) (p : LeasePort), s.conns[id]? = some c → c.pc = .waiting a p → fwdDecide conf c.rx = .openPort a p

theorem received_waiting {conf : Config} {rx : FwRecvOut} {a : IpAddr} {p : LeasePort} (h : (ConnTask.received conf rx).pc = .waiting a p) :
    fwdDecide conf rx = .openPort a p := by
  unfold ConnTask.received at h
  simp only at h
  split at h
  · cases h
  · cases h
  · rename_i h1; cases h; exact h1

theorem waits_step {conf : Config} {L : Who → Prop} {P : Kernel → Kernel → Prop} {s s' : TSys} (h : Waits conf s) (hs : NStep conf L P s s') : Waits conf s' := by
  have set : ∀ (i : Nat) (c0 : ConnTask), (∀ a p, c0.pc ≠ .waiting a p) → Waits conf { s with conns := s.conns.set i c0 } := by
    intro i c0 h0 id c a p hc hpc
    rcases set_get? _ _ _ _ _ hc with ⟨_, rfl⟩ | ⟨_, hc⟩
    · exact absurd hpc (h0 a p)
    · exact h id c a p hc hpc
  cases hs with
  | lost _ _ _ => exact h
  | step hs =>
    cases hs with
    | message rx _ =>
      intro id c a p hc hpc
      simp only at hc
      rw [List.getElem?_append] at hc
      split at hc
      · exact h id c a p hc hpc
      · rw [List.getElem?_singleton] at hc
        split at hc
        · cases hc; exact received_waiting hpc
        · cases hc
    | lockConn id _ _ _ => exact set id _ (fun _ _ h => by cases h)
    | doneConn _ _ _ => exact set _ _ (fun _ _ h => by cases h)
    | _ => exact h

theorem askedBy_step {conf : Config} {L : Who → Prop} {P : Kernel → Kernel → Prop} {s s' : TSys} (hs : NStep conf L P s s') {a : IpAddr} {p : LeasePort}
    (h : AskedBy conf s a p) : AskedBy conf s' a p := by
  obtain ⟨id, c, hc, hw, hd⟩ := h
  have set : ∀ (i : Nat) (c0 : ConnTask), (∀ a p, c0.pc ≠ .waiting a p) → (∃ c1, s.conns[i]? = some c1 ∧ c1.rx = c0.rx) →
      AskedBy conf { s with conns := s.conns.set i c0 } a p := by
    rintro i c0 h0 ⟨c1, h1, h2⟩
    by_cases he : i = id
    · subst he
      rw [hc] at h1
      cases h1
      exact ⟨i, c0, by simp [(List.getElem?_eq_some_iff.1 hc).1], h0, by rw [← h2]; exact hd⟩
    · exact ⟨id, c, by simp only; rw [List.getElem?_set_ne he]; exact hc, hw, hd⟩
  cases hs with
  | lost _ _ _ => exact ⟨id, c, hc, hw, hd⟩
  | step hs =>
    cases hs with
    | message rx _ => exact ⟨id, c, by simp only; rw [List.getElem?_append_left (List.getElem?_eq_some_iff.1 hc).1]; exact hc, hw, hd⟩
    | lockConn i _ _ h => exact set i _ (fun _ _ h => by cases h) ⟨_, h, rfl⟩
    | doneConn _ _ h => exact set _ _ (fun _ _ h => by cases h) ⟨_, h, rfl⟩
    | _ => exact ⟨id, c, hc, hw, hd⟩

/-- The firewall object, the ruleset and the operation under way know only what was asked for. -/
structure AskedInv (conf : Config) (n : NftNames) (s : TSys) : Prop where
  waits : Waits conf s
  fw : FwOk (AskedBy conf s) s.fw
  rules : ∀ c ∈ ownContents n s.kernel, RuleOk conf n (AskedBy conf s) c
  prog : ∀ h, s.holder = some h → ProgOk conf n (AskedBy conf s) h.prog

theorem askedInv_step {conf : Config} {n : NftNames} (hn : ChainOf conf n) {L : Who → Prop} {s s' : TSys} (hi : AskedInv conf n s)
    (hs : NStep conf L (OwnUnchanged n) s s') : AskedInv conf n s' := by
  have hw := waits_step hi.waits hs
  have hm := fun a p => askedBy_step (a := a) (p := p) hs
  have hfw := FwOk.mono hm hi.fw
  have hru := fun c hc => RuleOk.mono hm (hi.rules c hc)
  have hpr := fun h hh => ProgOk.mono hm (hi.prog h hh)
  cases hs with
  | lost h1 h2 h3 h4 =>
    have h5 := hpr _ h2
    cases h5 with
    | apply _ _ hc hk => exact ⟨hw, hfw, applyCmds_ruleOk h4 hc hru, fun h hh => by cases hh; exact hk false⟩
  | step hs =>
    cases hs with
    | tick t h => exact ⟨hw, hfw, hru, hpr⟩
    | foreign k h =>
      refine ⟨hw, hfw, fun c hc => ?_, hpr⟩
      rw [ownContents_congr h.own] at hc
      exact hru c hc
    | reorder l h1 h2 h3 => exact ⟨hw, fun e he => hfw e (h3.subset he), hru, hpr⟩
    | message rx h => exact ⟨hw, hfw, hru, hpr⟩
    | maintTick h1 h2 => exact ⟨hw, hfw, hru, hpr⟩
    | leave h1 h2 => exact ⟨hw, hfw, hru, hpr⟩
    | lockConn id h1 h2 h3 =>
      refine ⟨hw, hfw, hru, fun h hh => ?_⟩
      cases hh
      refine openPortP_progOk hn hfw _ ⟨id, ⟨_, .inside⟩, List.getElem?_set_self (List.getElem?_eq_some_iff.1 h3).1, fun _ _ h => (by cases h), ?_⟩
      exact hi.waits id ⟨_, .waiting _ _⟩ _ _ h3 rfl
    | lockMaint h1 h2 h3 => exact ⟨hw, hfw, hru, fun h hh => by cases hh; exact maintainP_progOk hn hfw _⟩
    | lockMain h1 h2 h3 => exact ⟨hw, hfw, hru, fun h hh => by cases hh; exact shutdownP_progOk hn hfw⟩
    | nftList ok h1 h2 =>
      have h5 := hpr _ h2
      cases h5 with
      | list _ hk => exact ⟨hw, hfw, hru, fun h hh => by cases hh; exact hk _⟩
    | nftApply ok h1 h2 =>
      have h5 := hpr _ h2
      cases h5 with
      | apply _ _ hc hk => exact ⟨hw, hfw, runNft_ruleOk hc hru, fun h hh => by cases hh; exact hk _⟩
    | doneConn h1 h2 h3 =>
      have h5 := hpr _ h2
      cases h5 with
      | ret _ _ hf => exact ⟨hw, hf, hru, fun h hh => by cases hh⟩
    | doneMaint h1 h2 =>
      have h5 := hpr _ h2
      cases h5 with
      | ret _ _ hf => exact ⟨hw, hf, hru, fun h hh => by cases hh⟩
    | doneMain h1 h2 =>
      have h5 := hpr _ h2
      cases h5 with
      | ret _ _ hf => exact ⟨hw, hf, hru, fun h hh => by cases hh⟩

theorem askedInv_steps {conf : Config} {n : NftNames} (hn : ChainOf conf n) {L : Who → Prop} {s s' : TSys} (hi : AskedInv conf n s)
    (hs : NSteps conf L (OwnUnchanged n) s s') : AskedInv conf n s' := by
  induction hs with
  | refl => exact hi
  | step _ h ih => exact askedInv_step hn ih h

theorem askedInv_start {conf : Config} {n : NftNames} (hn : ChainOf conf n) {k0 : Kernel} {ok0 : Bool} {f : FwdState} (h0 : fwdStart conf k0 ok0 = some f) (t : Nat) :
    AskedInv conf n (TSys.start f t) := by
  obtain ⟨h1, h2⟩ := start_ruleOk hn h0 (AskedBy conf (TSys.start f t))
  exact ⟨fun id c a p hc => (by simp [TSys.start] at hc), h1, h2, fun h hh => (by cases hh)⟩

/-! ## Nothing refused -/

/-- A connection that has been answered with Ack asked for it. -/
def AckedBy (conf : Config) (s : TSys) (a : IpAddr) (p : LeasePort) : Prop :=
  ∃ (id : Nat) (c : ConnTask) (r : FwMessage), s.conns[id]? = some c ∧ c.pc = .replied (some r) ∧ r.operation = .Ack ∧ fwdDecide conf c.rx = .openPort a p

theorem ackedBy_step {conf : Config} {L : Who → Prop} {P : Kernel → Kernel → Prop} {s s' : TSys} (hs : NStep conf L P s s') {a : IpAddr} {p : LeasePort}
    (h : AckedBy conf s a p) : AckedBy conf s' a p := by
  obtain ⟨id, c, r, hc, hw, hd⟩ := h
  have set : ∀ (i : Nat) (c0 : ConnTask), (∃ c1, s.conns[i]? = some c1 ∧ ∀ r, c1.pc ≠ .replied r) →
      AckedBy conf { s with conns := s.conns.set i c0 } a p := by
    rintro i c0 ⟨c1, h1, h2⟩
    by_cases he : i = id
    · subst he
      rw [hc] at h1
      cases h1
      exact absurd hw (h2 _)
    · exact ⟨id, c, r, by simp only; rw [List.getElem?_set_ne he]; exact hc, hw, hd⟩
  cases hs with
  | lost _ _ _ => exact ⟨id, c, r, hc, hw, hd⟩
  | step hs =>
    cases hs with
    | message rx _ => exact ⟨id, c, r, by simp only; rw [List.getElem?_append_left (List.getElem?_eq_some_iff.1 hc).1]; exact hc, hw, hd⟩
    | lockConn i _ _ h => exact set i _ ⟨_, h, fun _ h => by cases h⟩
    | doneConn _ _ h => exact set _ _ ⟨_, h, fun _ h => by cases h⟩
    | _ => exact ⟨id, c, r, hc, hw, hd⟩

/-- Also this. -/
def orThis (A : IpAddr → LeasePort → Prop) (a : IpAddr) (p : LeasePort) (a' : IpAddr) (p' : LeasePort) : Prop := A a' p' ∨ a' = a ∧ p' = p

/-- Where the program of a connection can be, and what the ruleset `k` then is. -/
inductive ConnProg (conf : Config) (n : NftNames) (A : IpAddr → LeasePort → Prop) (a : IpAddr) (p : LeasePort) (k : Kernel) : LProg → Prop where
  | opened (fw) : FwOk (orThis A a p) fw → (∀ c ∈ ownContents n k, RuleOk conf n (orThis A a p) c) → ConnProg conf n A a p k (.ret (.ok ()) fw)
  | refused (r fw) : r ≠ .ok () → FwOk A fw → (∀ c ∈ ownContents n k, RuleOk conf n A c) → ConnProg conf n A a p k (.ret r fw)
  | running (cmds g fw fw') : (∀ c ∈ cmds, CmdOk conf n (orThis A a p) c) → g true = .ret (.ok ()) fw' → g false = .ret .err fw →
      FwOk (orThis A a p) fw' → FwOk A fw → (∀ c ∈ ownContents n k, RuleOk conf n A c) → ConnProg conf n A a p k (.apply cmds g)

theorem orThis_mono {A B : IpAddr → LeasePort → Prop} (h : ∀ a p, A a p → B a p) (a : IpAddr) (p : LeasePort) :
    ∀ a' p', orThis A a p a' p' → orThis B a p a' p' := fun _ _ h1 => h1.imp (h _ _) id

theorem ConnProg.mono {conf : Config} {n : NftNames} {A B : IpAddr → LeasePort → Prop} (h : ∀ a p, A a p → B a p) {a : IpAddr} {p : LeasePort} {k k' : Kernel}
    (hk : ownContents n k' = ownContents n k) {q : LProg} (hq : ConnProg conf n A a p k q) : ConnProg conf n B a p k' q := by
  have h' := orThis_mono h a p
  cases hq with
  | opened fw h1 h2 => exact .opened fw (FwOk.mono h' h1) fun c hc => RuleOk.mono h' (h2 c (by rw [← hk]; exact hc))
  | refused r fw h1 h2 h3 => exact .refused r fw h1 (FwOk.mono h h2) fun c hc => RuleOk.mono h (h3 c (by rw [← hk]; exact hc))
  | running cmds g fw fw' h1 h2 h3 h4 h5 h6 =>
    exact .running cmds g fw fw' (fun c hc r hr => RuleOk.mono h' (h1 c hc r hr)) h2 h3 (FwOk.mono h' h4) (FwOk.mono h h5)
      fun c hc => RuleOk.mono h (h6 c (by rw [← hk]; exact hc))

theorem ConnProg.applied {conf : Config} {n : NftNames} {A : IpAddr → LeasePort → Prop} {a : IpAddr} {p : LeasePort} {k : Kernel} {cmds : List NfCmd} {g : Bool → LProg}
    (h : ConnProg conf n A a p k (.apply cmds g)) (ok : Bool) : ConnProg conf n A a p (runNft k cmds ok).2 (g (runNft k cmds ok).1) := by
  cases h with
  | running _ _ fw fw' e1 e2 e3 e4 e5 e6 =>
    have hbad : ConnProg conf n A a p k (g false) := by rw [e3]; exact .refused _ _ (by simp) e5 e6
    unfold runNft applyBatch
    cases ok with
    | false => exact hbad
    | true =>
      simp only [if_true]
      cases h9 : applyCmds k cmds with
      | none => exact hbad
      | some k' =>
        simp only [e2]
        exact .opened _ e4 (applyCmds_ruleOk h9 e1 fun c hc => RuleOk.mono (fun _ _ h => .inl h) (e6 c hc))

theorem openPortP_connProg {conf : Config} {n : NftNames} (hn : ChainOf conf n) {A : IpAddr → LeasePort → Prop} {fw : NftFirewall} (hf : FwOk A fw) (t : Nat)
    (addr : IpAddr) (port : LeasePort) {k : Kernel} (hk : ∀ c ∈ ownContents n k, RuleOk conf n A c) :
    ConnProg conf n A addr port k (openPortP conf fw t addr port) := by
  have hA : ∀ a p, A a p → orThis A addr port a p := fun _ _ h => .inl h
  unfold openPortP
  split
  · exact .refused _ _ (by simp) hf hk
  · simp only
    split
    · refine .opened _ (fun e he => ?_) fun c hc => RuleOk.mono hA (hk c hc)
      simp only [leaseUpdate] at he
      obtain ⟨e', he', rfl⟩ := List.mem_map.1 he
      have := hf e' he'
      split <;> exact .inl this
    · split
      · rename_i l hl
        obtain ⟨h1, h2⟩ := lease_new_eq hl
        have hal : orThis A addr port l.addr l.port := .inr ⟨h1, h2⟩
        have hf' : FwOk (orThis A addr port) { fw with leases := fw.leases ++ [((addr, port), l)] } := by
          intro e he
          rcases List.mem_append.1 he with he | he
          · exact .inl (hf e he)
          · simp only [List.mem_singleton] at he
            subst he
            exact hal
        unfold addLeaseP
        split
        · rename_i cmds hc
          exact .running _ _ fw _ (genAddLeaseCmds_cmdOk hn hal hc) rfl rfl hf' hf hk
        · exact .refused _ _ (by simp) hf hk
        · exact .refused _ _ (by simp) hf hk
      · exact .refused _ _ (by simp) hf hk
      · exact .refused _ _ (by simp) hf hk

/-- The operation under way. -/
def HolderOk (conf : Config) (n : NftNames) (A : IpAddr → LeasePort → Prop) (conns : List ConnTask) (k : Kernel) : Option Holder → Prop
  | none => ∀ c ∈ ownContents n k, RuleOk conf n A c
  | some ⟨.conn id, _, q⟩ => ∃ rx a p, conns[id]? = some ⟨rx, .inside⟩ ∧ fwdDecide conf rx = .openPort a p ∧ ConnProg conf n A a p k q
  | some ⟨_, _, q⟩ => (∀ c ∈ ownContents n k, RuleOk conf n A c) ∧ ProgOk conf n A q

theorem HolderOk.mono {conf : Config} {n : NftNames} {A B : IpAddr → LeasePort → Prop} (h : ∀ a p, A a p → B a p) {conns conns' : List ConnTask} {k k' : Kernel}
    (hk : ownContents n k' = ownContents n k) (hc : ∀ (id : Nat) c, conns[id]? = some c → conns'[id]? = some c) {o : Option Holder}
    (ho : HolderOk conf n A conns k o) : HolderOk conf n B conns' k' o := by
  have hru : (∀ c ∈ ownContents n k, RuleOk conf n A c) → ∀ c ∈ ownContents n k', RuleOk conf n B c :=
    fun h1 c hc => RuleOk.mono h (h1 c (by rw [← hk]; exact hc))
  cases o with
  | none => exact hru ho
  | some o =>
    obtain ⟨who, since, q⟩ := o
    cases who with
    | conn id =>
      obtain ⟨rx, a, p, h1, h2, h3⟩ := ho
      exact ⟨rx, a, p, hc _ _ h1, h2, ConnProg.mono h hk h3⟩
    | maint => exact ⟨hru ho.1, ProgOk.mono h ho.2⟩
    | main => exact ⟨hru ho.1, ProgOk.mono h ho.2⟩

/-- The firewall object and the ruleset know only what has been answered with Ack, apart from the operation under way. -/
structure AckedInv (conf : Config) (n : NftNames) (s : TSys) : Prop where
  waits : Waits conf s
  fw : FwOk (AckedBy conf s) s.fw
  holder : HolderOk conf n (AckedBy conf s) s.conns s.kernel s.holder

theorem ackedInv_step {conf : Config} {n : NftNames} (hn : ChainOf conf n) {L : Who → Prop} (hL : ∀ id, ¬ L (.conn id)) {s s' : TSys} (hi : AckedInv conf n s)
    (hs : NStep conf L (OwnUnchanged n) s s') : AckedInv conf n s' := by
  have hw := waits_step hi.waits hs
  have hm := fun a p => ackedBy_step (a := a) (p := p) hs
  have hfw := FwOk.mono hm hi.fw
  have hho := fun {conns' k'} => HolderOk.mono (conns' := conns') (k' := k') hm (ho := hi.holder)
  cases hs with
  | @lost who _ _ _ _ h1 h2 h3 h4 =>
    have h5 := hho rfl (fun _ _ h => h)
    rw [h2] at h5
    cases who with
    | conn id => exact absurd h3 (hL id)
    | maint =>
      obtain ⟨h6, h7⟩ := h5
      cases h7 with
      | apply _ _ hc hk => exact ⟨hw, hfw, applyCmds_ruleOk h4 hc h6, hk false⟩
    | main =>
      obtain ⟨h6, h7⟩ := h5
      cases h7 with
      | apply _ _ hc hk => exact ⟨hw, hfw, applyCmds_ruleOk h4 hc h6, hk false⟩
  | step hs =>
    cases hs with
    | tick t h => exact ⟨hw, hfw, hho rfl (fun _ _ h => h)⟩
    | foreign k h => exact ⟨hw, hfw, hho (ownContents_congr h.own) (fun _ _ h => h)⟩
    | reorder l h1 h2 h3 => exact ⟨hw, fun e he => hfw e (h3.subset he), hho rfl (fun _ _ h => h)⟩
    | message rx h =>
      refine ⟨hw, hfw, hho rfl (fun id c hc => ?_)⟩
      simp only
      rw [List.getElem?_append_left (List.getElem?_eq_some_iff.1 hc).1]
      exact hc
    | maintTick h1 h2 => exact ⟨hw, hfw, hho rfl (fun _ _ h => h)⟩
    | leave h1 h2 => exact ⟨hw, hfw, hho rfl (fun _ _ h => h)⟩
    | lockConn id h1 h2 h3 =>
      have h5 := hho rfl (fun _ _ h => h)
      rw [h2] at h5
      exact ⟨hw, hfw, _, _, _, List.getElem?_set_self (List.getElem?_eq_some_iff.1 h3).1, hi.waits id _ _ _ h3 rfl, openPortP_connProg hn hfw _ _ _ h5⟩
    | lockMaint h1 h2 h3 =>
      have h5 := hho rfl (fun _ _ h => h)
      rw [h2] at h5
      exact ⟨hw, hfw, h5, maintainP_progOk hn hfw _⟩
    | lockMain h1 h2 h3 =>
      have h5 := hho rfl (fun _ _ h => h)
      rw [h2] at h5
      exact ⟨hw, hfw, h5, shutdownP_progOk hn hfw⟩
    | @nftList who _ _ ok h1 h2 =>
      have h5 := hho rfl (fun _ _ h => h)
      rw [h2] at h5
      cases who with
      | conn id => obtain ⟨_, _, _, _, _, h6⟩ := h5; cases h6
      | maint =>
        obtain ⟨h6, h7⟩ := h5
        cases h7 with
        | list _ hk => exact ⟨hw, hfw, h6, hk _⟩
      | main =>
        obtain ⟨h6, h7⟩ := h5
        cases h7 with
        | list _ hk => exact ⟨hw, hfw, h6, hk _⟩
    | @nftApply who _ cmds g ok h1 h2 =>
      have h5 := hho rfl (fun _ _ h => h)
      rw [h2] at h5
      cases who with
      | conn id =>
        obtain ⟨rx, a, p, h6, h7, h8⟩ := h5
        exact ⟨hw, hfw, rx, a, p, h6, h7, ConnProg.applied h8 ok⟩
      | maint =>
        obtain ⟨h6, h7⟩ := h5
        cases h7 with
        | apply _ _ hc hk => exact ⟨hw, hfw, runNft_ruleOk hc h6, hk _⟩
      | main =>
        obtain ⟨h6, h7⟩ := h5
        cases h7 with
        | apply _ _ hc hk => exact ⟨hw, hfw, runNft_ruleOk hc h6, hk _⟩
    | @doneConn id since r fw rx h1 h2 h3 =>
      have h5 := hho rfl (fun _ _ h => h)
      rw [h2] at h5
      obtain ⟨rx', a, p, h6, h7, h8⟩ := h5
      rw [h3] at h6
      cases h6
      cases h8 with
      | opened _ e1 e2 =>
        have hthis : ∀ a' p', orThis (AckedBy conf { s with
            fw := fw, holder := none, conns := s.conns.set id ⟨rx, .replied (some (answerOf (.ok ())))⟩ }) a p a' p' → AckedBy conf { s with
            fw := fw, holder := none, conns := s.conns.set id ⟨rx, .replied (some (answerOf (.ok ())))⟩ } a' p' := by
          rintro a' p' (h | ⟨rfl, rfl⟩)
          · exact h
          · exact ⟨id, _, FwMessage.newAck, List.getElem?_set_self (List.getElem?_eq_some_iff.1 h3).1, rfl, rfl, h7⟩
        exact ⟨hw, FwOk.mono hthis e1, fun c hc => RuleOk.mono hthis (e2 c hc)⟩
      | refused _ _ _ e1 e2 => exact ⟨hw, e1, e2⟩
    | doneMaint h1 h2 =>
      have h5 := hho rfl (fun _ _ h => h)
      rw [h2] at h5
      obtain ⟨h6, h7⟩ := h5
      cases h7 with
      | ret _ _ hf => exact ⟨hw, hf, h6⟩
    | doneMain h1 h2 =>
      have h5 := hho rfl (fun _ _ h => h)
      rw [h2] at h5
      obtain ⟨h6, h7⟩ := h5
      cases h7 with
      | ret _ _ hf => exact ⟨hw, hf, h6⟩

theorem ackedInv_steps {conf : Config} {n : NftNames} (hn : ChainOf conf n) {L : Who → Prop} (hL : ∀ id, ¬ L (.conn id)) {s s' : TSys} (hi : AckedInv conf n s)
    (hs : NSteps conf L (OwnUnchanged n) s s') : AckedInv conf n s' := by
  induction hs with
  | refl => exact hi
  | step _ h ih => exact ackedInv_step hn hL ih h

theorem ackedInv_start {conf : Config} {n : NftNames} (hn : ChainOf conf n) {k0 : Kernel} {ok0 : Bool} {f : FwdState} (h0 : fwdStart conf k0 ok0 = some f) (t : Nat) :
    AckedInv conf n (TSys.start f t) := by
  obtain ⟨h1, h2⟩ := start_ruleOk hn h0 (AckedBy conf (TSys.start f t))
  exact ⟨fun id c a p hc => (by simp [TSys.start] at hc), h1, h2⟩

end Letmein.Props
