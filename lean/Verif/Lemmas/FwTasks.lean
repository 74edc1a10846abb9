import Verif.Spec.FwTasks
import Verif.Props.Firewall

/-! # Operations under the lock are atomic -/

namespace Letmein.Props
open Letmein Prog Spec

/-! ## Programs -/

/-- One step of a program under the lock, or of other programs. -/
inductive LStep (P : Kernel → Kernel → Prop) : LProg → Kernel → LProg → Kernel → Prop where
  | foreign {p k k'} : P k k' → LStep P p k p k'
  | list {f k} (ok : Bool) : LStep P (.list f) k (f (if ok then some k.rules else none)) k
  | apply {cmds f k} (ok : Bool) : LStep P (.apply cmds f) k (f (runNft k cmds ok).1) (runNft k cmds ok).2

/-- Any number of steps. -/
inductive LReach (P : Kernel → Kernel → Prop) : LProg → Kernel → LProg → Kernel → Prop where
  | refl (p k) : LReach P p k p k
  | head {p k q k' r k''} : LStep P p k q k' → LReach P q k' r k'' → LReach P p k r k''

theorem LReach.tail {P : Kernel → Kernel → Prop} {p q r : LProg} {k k' k'' : Kernel} (h : LReach P p k q k') (hs : LStep P q k' r k'') :
    LReach P p k r k'' := by
  induction h with
  | refl => exact .head hs (.refl _ _)
  | head h1 _ ih => exact .head h1 (ih hs)

theorem LReach.ret_inv {P : Kernel → Kernel → Prop} (hP : Preorder' P) {r : R Unit} {fw : NftFirewall} {q : LProg} {k k' : Kernel}
    (h : LReach P (.ret r fw) k q k') : q = .ret r fw ∧ P k k' := by
  generalize hp : LProg.ret r fw = p at h
  suffices hq : q = p ∧ P k k' from hp ▸ hq
  induction h with
  | refl => exact ⟨rfl, hP.refl _⟩
  | head h1 _ ih =>
    cases h1 with
    | foreign h1 =>
      obtain ⟨h2, h3⟩ := ih hp
      exact ⟨h2, hP.trans _ _ _ h1 h3⟩
    | list ok => cases hp
    | apply ok => cases hp

theorem LReach.list_inv {P : Kernel → Kernel → Prop} (hP : Preorder' P) {f : Option (List KRule) → LProg} {r : R Unit} {fw : NftFirewall}
    {k k' : Kernel} (h : LReach P (.list f) k (.ret r fw) k') :
    ∃ k1, ∃ ok : Bool, P k k1 ∧ LReach P (f (if ok then some k1.rules else none)) k1 (.ret r fw) k' := by
  generalize hp : LProg.list f = p at h
  generalize hq : LProg.ret r fw = q at h
  induction h with
  | refl => rw [← hp] at hq; cases hq
  | @head p k q k' r k'' h1 h2 ih =>
    cases h1 with
    | foreign h1 =>
      obtain ⟨k1, ok, h3, h4⟩ := ih hp hq
      exact ⟨k1, ok, hP.trans _ _ _ h1 h3, h4⟩
    | list ok => cases hp; subst hq; exact ⟨_, ok, hP.refl _, h2⟩
    | apply ok => cases hp

theorem LReach.apply_inv {P : Kernel → Kernel → Prop} (hP : Preorder' P) {cmds : List NfCmd} {f : Bool → LProg} {r : R Unit} {fw : NftFirewall}
    {k k' : Kernel} (h : LReach P (.apply cmds f) k (.ret r fw) k') :
    ∃ k1 ok, P k k1 ∧ LReach P (f (runNft k1 cmds ok).1) (runNft k1 cmds ok).2 (.ret r fw) k' := by
  generalize hp : LProg.apply cmds f = p at h
  generalize hq : LProg.ret r fw = q at h
  induction h with
  | refl => rw [← hp] at hq; cases hq
  | @head p k q k' r k'' h1 h2 ih =>
    cases h1 with
    | foreign h1 =>
      obtain ⟨k1, ok, h3, h4⟩ := ih hp hq
      exact ⟨k1, ok, hP.trans _ _ _ h1 h3, h4⟩
    | list ok => cases hp
    | apply ok => cases hp; subst hq; exact ⟨_, ok, hP.refl _, h2⟩

theorem runNft_eq (k : Kernel) (cmds : List NfCmd) (ok : Bool) :
    applyBatch k cmds ok = (applied (runNft k cmds ok).1, (runNft k cmds ok).2) := by
  unfold runNft applyBatch applied
  cases ok
  · rfl
  · cases applyCmds k cmds <;> rfl

theorem rebuildP_inv {P : Kernel → Kernel → Prop} (hP : Preorder' P) {conf : Config} {fw : NftFirewall} {g : R Unit → LProg} {r : R Unit}
    {fw' : NftFirewall} {k k' : Kernel} (h : LReach P (rebuildP conf fw g) k (.ret r fw') k') :
    ∃ k1 ok, P k k1 ∧ LReach P (g (fullRebuild conf fw k1 ok).1) (fullRebuild conf fw k1 ok).2 (.ret r fw') k' := by
  unfold rebuildP at h
  unfold fullRebuild
  generalize rebuildCmds conf fw = c at *
  cases c with
  | ok cmds =>
    obtain ⟨k1, ok, h1, h2⟩ := LReach.apply_inv hP h
    exact ⟨k1, ok, h1, by simp only [runNft_eq]; exact h2⟩
  | err => exact ⟨k, true, hP.refl _, h⟩
  | panic => exact ⟨k, true, hP.refl _, h⟩

theorem addLeaseP_inv {P : Kernel → Kernel → Prop} (hP : Preorder' P) {conf : Config} {l : Lease} {g : R Unit → LProg} {r : R Unit}
    {fw' : NftFirewall} {k k' : Kernel} (h : LReach P (addLeaseP conf l g) k (.ret r fw') k') :
    ∃ k1 ok, P k k1 ∧ LReach P (g (addLease conf l k1 ok).1) (addLease conf l k1 ok).2 (.ret r fw') k' := by
  unfold addLeaseP at h
  unfold addLease
  generalize genAddLeaseCmds conf l = c at *
  cases c with
  | ok cmds =>
    obtain ⟨k1, ok, h1, h2⟩ := LReach.apply_inv hP h
    exact ⟨k1, ok, h1, by simp only [runNft_eq]; exact h2⟩
  | err => exact ⟨k, true, hP.refl _, h⟩
  | panic => exact ⟨k, true, hP.refl _, h⟩

/-- The function that is the identity except that it takes `k1` to `k2`. -/
noncomputable def jump (k1 k2 : Kernel) : Kernel → Kernel := fun x => @ite _ (x = k1) (Classical.propDecidable _) k2 x

theorem jump_self (k1 k2 : Kernel) : jump k1 k2 k1 = k2 := by unfold jump; rw [if_pos rfl]

theorem jump_fair {P : Kernel → Kernel → Prop} (hP : Preorder' P) {k1 k2 : Kernel} (h : P k1 k2) (k : Kernel) : P k (jump k1 k2 k) := by
  unfold jump
  split
  · rename_i hk; subst hk; exact h
  · exact hP.refl _

theorem removeLeasesP_inv {P : Kernel → Kernel → Prop} (hP : Preorder' P) {conf : Config} {ls : List Lease} {g : R Unit → LProg} {r : R Unit}
    {fw' : NftFirewall} {k k' : Kernel} (h : LReach P (removeLeasesP conf ls g) k (.ret r fw') k') :
    ∃ k1 lok dok aft, P k k1 ∧ (∀ x, P x (aft x)) ∧ ∀ rok bef,
      LReach P (g (removeLeases conf ls k1 ⟨lok, dok, rok, aft, bef⟩).1) (removeLeases conf ls k1 ⟨lok, dok, rok, aft, bef⟩).2 (.ret r fw') k' := by
  unfold removeLeasesP at h
  unfold removeLeases
  by_cases he : ls.isEmpty = true
  · simp only [he, if_true] at h ⊢
    exact ⟨k, true, true, id, hP.refl _, fun x => hP.refl x, fun _ _ => h⟩
  · simp only [he, Bool.false_eq_true, if_false] at h ⊢
    obtain ⟨k1, lok, h1, h2⟩ := LReach.list_inv hP h
    cases lok with
    | false => exact ⟨k1, false, true, id, h1, fun x => hP.refl x, fun _ _ => h2⟩
    | true =>
      simp only [if_true] at h2
      generalize hc : collect (genDeleteLeaseCmds conf k1.rules) ls = c at h2
      cases c with
      | ok cmds =>
        obtain ⟨k2, dok, h3, h4⟩ := LReach.apply_inv hP h2
        refine ⟨k1, true, dok, jump k1 k2, h1, jump_fair hP h3, fun _ _ => ?_⟩
        simp only [hc, jump_self, runNft_eq]
        exact h4
      | err => exact ⟨k1, true, true, id, h1, fun x => hP.refl x, fun _ _ => by simp only [hc]; exact h2⟩
      | panic => exact ⟨k1, true, true, id, h1, fun x => hP.refl x, fun _ _ => by simp only [hc]; exact h2⟩

/-! ## Operations -/

theorem shutdownP_atomic {P : Kernel → Kernel → Prop} (hP : Preorder' P) {conf : Config} {fw fw' : NftFirewall} {r : R Unit} {k k' : Kernel}
    (h : LReach P (shutdownP conf fw) k (.ret r fw') k') :
    ∃ k1 k2 ok, P k k1 ∧ fw.doShutdown conf k1 ok = (r, fw', k2) ∧ P k2 k' := by
  unfold shutdownP at h
  unfold NftFirewall.doShutdown
  by_cases hs : fw.shutdown = true
  · simp only [hs, if_true] at h ⊢
    obtain ⟨h1, h2⟩ := LReach.ret_inv hP h
    cases h1
    exact ⟨k, k, true, hP.refl _, rfl, h2⟩
  · simp only [hs, Bool.false_eq_true, if_false] at h ⊢
    obtain ⟨k1, ok, h1, h2⟩ := rebuildP_inv hP h
    obtain ⟨h3, h4⟩ := LReach.ret_inv hP h2
    cases h3
    exact ⟨k1, _, ok, h1, rfl, h4⟩

theorem openPortP_atomic {P : Kernel → Kernel → Prop} (hP : Preorder' P) {conf : Config} {fw fw' : NftFirewall} {t : Nat} {addr : IpAddr}
    {port : LeasePort} {r : R Unit} {k k' : Kernel} (h : LReach P (openPortP conf fw t addr port) k (.ret r fw') k') :
    ∃ k1 k2 ok, P k k1 ∧ fw.openPort conf k1 t addr port ok = (r, fw', k2) ∧ P k2 k' := by
  unfold openPortP at h
  unfold NftFirewall.openPort
  by_cases hs : fw.shutdown = true
  · simp only [hs, if_true] at h ⊢
    obtain ⟨h1, h2⟩ := LReach.ret_inv hP h
    cases h1
    exact ⟨k, k, true, hP.refl _, rfl, h2⟩
  · simp only [hs, Bool.false_eq_true, if_false] at h ⊢
    by_cases ha : (fw.leases.any (fun e => e.1 = (addr, port))) = true
    · simp only [ha, if_true] at h ⊢
      obtain ⟨h1, h2⟩ := LReach.ret_inv hP h
      cases h1
      exact ⟨k, k, true, hP.refl _, rfl, h2⟩
    · simp only [ha, Bool.false_eq_true, if_false] at h ⊢
      generalize Lease.new conf t addr port = l at h ⊢
      cases l with
      | ok l =>
        obtain ⟨k1, ok, h1, h2⟩ := addLeaseP_inv hP h
        generalize hq : addLease conf l k1 ok = q at h2
        obtain ⟨qr, k2⟩ := q
        refine ⟨k1, k2, ok, h1, ?_⟩
        simp only [Bool.false_eq_true, if_false, hq]
        cases qr <;>
        · obtain ⟨h3, h4⟩ := LReach.ret_inv hP h2
          cases h3
          exact ⟨rfl, h4⟩
      | err =>
        obtain ⟨h1, h2⟩ := LReach.ret_inv hP h
        cases h1
        exact ⟨k, k, true, hP.refl _, rfl, h2⟩
      | panic =>
        obtain ⟨h1, h2⟩ := LReach.ret_inv hP h
        cases h1
        exact ⟨k, k, true, hP.refl _, rfl, h2⟩

theorem maintainP_atomic {P : Kernel → Kernel → Prop} (hP : Preorder' P) {conf : Config} {fw fw' : NftFirewall} {t : Nat} {r : R Unit}
    {k k' : Kernel} (h : LReach P (maintainP conf fw t) k (.ret r fw') k') :
    ∃ k1 k2 env, P k k1 ∧ fw.maintain conf k1 t env = (r, fw', k2) ∧ P k2 k' ∧ (∀ x, P x (env.afterList x)) ∧ (∀ x, P x (env.beforeRebuild x)) := by
  unfold maintainP at h
  unfold NftFirewall.maintain
  have hid : ∀ x, P x ((⟨true, true, true, id, id⟩ : NftEnv).afterList x) := fun x => hP.refl x
  by_cases hs : fw.shutdown = true
  · simp only [hs, if_true] at h ⊢
    obtain ⟨h1, h2⟩ := LReach.ret_inv hP h
    cases h1
    exact ⟨k, k, ⟨true, true, true, id, id⟩, hP.refl _, rfl, h2, hid, hid⟩
  · simp only [hs, Bool.false_eq_true, if_false] at h ⊢
    by_cases he : (pruneAllLeaseTimeouts t fw.leases).2.isEmpty = true
    · simp only [he, if_true] at h ⊢
      obtain ⟨h1, h2⟩ := LReach.ret_inv hP h
      cases h1
      exact ⟨k, k, ⟨true, true, true, id, id⟩, hP.refl _, rfl, h2, hid, hid⟩
    · simp only [he, Bool.false_eq_true, if_false] at h ⊢
      obtain ⟨k1, lok, dok, aft, h1, haft, hrun⟩ := removeLeasesP_inv hP h
      have hsame : ∀ rok bef, removeLeases conf (pruneAllLeaseTimeouts t fw.leases).2 k1 ⟨lok, dok, rok, aft, bef⟩ =
          removeLeases conf (pruneAllLeaseTimeouts t fw.leases).2 k1 ⟨lok, dok, true, aft, id⟩ := fun _ _ => rfl
      simp only [hsame] at hrun
      have hrun := hrun true id
      generalize hq : removeLeases conf (pruneAllLeaseTimeouts t fw.leases).2 k1 ⟨lok, dok, true, aft, id⟩ = q at hrun
      obtain ⟨qr, k2⟩ := q
      cases qr with
      | ok u =>
        obtain ⟨h3, h4⟩ := LReach.ret_inv hP hrun
        cases h3
        exact ⟨k1, k2, ⟨lok, dok, true, aft, id⟩, h1, by simp [hq], h4, haft, fun x => hP.refl x⟩
      | panic =>
        obtain ⟨h3, h4⟩ := LReach.ret_inv hP hrun
        cases h3
        exact ⟨k1, k2, ⟨lok, dok, true, aft, id⟩, h1, by simp [hq], h4, haft, fun x => hP.refl x⟩
      | err =>
        obtain ⟨k3, rok, h3, h4⟩ := rebuildP_inv hP hrun
        obtain ⟨h5, h6⟩ := LReach.ret_inv hP h4
        cases h5
        refine ⟨k1, _, ⟨lok, dok, rok, aft, jump k2 k3⟩, h1, ?_, h6, haft, jump_fair hP h3⟩
        simp only [hsame, hq, jump_self, Bool.false_eq_true, if_false]

/-! ## A ruleset is changed once -/

/-- After a batch has been applied, the program is done. -/
inductive OneShot : LProg → Prop where
  | ret (r fw) : OneShot (.ret r fw)
  | list (f) : (∀ x, OneShot (f x)) → OneShot (.list f)
  | apply (cmds f) : (∃ r fw, f true = .ret r fw) → OneShot (f false) → OneShot (.apply cmds f)

theorem rebuildP_oneShot {conf : Config} {fw : NftFirewall} {g : R Unit → LProg} (h : ∀ r, ∃ r' fw', g r = .ret r' fw') :
    OneShot (rebuildP conf fw g) := by
  unfold rebuildP
  have h2 : ∀ r, OneShot (g r) := fun r => by
    obtain ⟨_, _, h⟩ := h r; rw [h]; exact .ret _ _
  split
  · exact .apply _ _ (h _) (h2 _)
  · exact h2 _
  · exact h2 _

theorem addLeaseP_oneShot {conf : Config} {l : Lease} {g : R Unit → LProg} (h : ∀ r, ∃ r' fw', g r = .ret r' fw') :
    OneShot (addLeaseP conf l g) := by
  unfold addLeaseP
  have h2 : ∀ r, OneShot (g r) := fun r => by
    obtain ⟨_, _, h⟩ := h r; rw [h]; exact .ret _ _
  split
  · exact .apply _ _ (h _) (h2 _)
  · exact h2 _
  · exact h2 _

theorem removeLeasesP_oneShot {conf : Config} {ls : List Lease} {g : R Unit → LProg} (h1 : ∃ r fw, g (.ok ()) = .ret r fw)
    (h2 : ∀ r, OneShot (g r)) : OneShot (removeLeasesP conf ls g) := by
  unfold removeLeasesP
  split
  · exact h2 _
  · refine .list _ fun x => ?_
    cases x with
    | none => exact h2 _
    | some rules =>
      simp only
      split
      · exact .apply _ _ h1 (h2 _)
      · exact h2 _
      · exact h2 _

theorem shutdownP_oneShot (conf : Config) (fw : NftFirewall) : OneShot (shutdownP conf fw) := by
  unfold shutdownP
  split
  · exact .ret _ _
  · exact rebuildP_oneShot fun r => ⟨_, _, rfl⟩

theorem maintainP_oneShot (conf : Config) (fw : NftFirewall) (t : Nat) : OneShot (maintainP conf fw t) := by
  unfold maintainP
  split
  · exact .ret _ _
  · simp only
    split
    · exact .ret _ _
    · refine removeLeasesP_oneShot ⟨_, _, rfl⟩ fun r => ?_
      cases r with
      | ok => exact .ret _ _
      | panic => exact .ret _ _
      | err => exact rebuildP_oneShot fun r => ⟨_, _, rfl⟩

theorem openPortP_oneShot (conf : Config) (fw : NftFirewall) (t : Nat) (addr : IpAddr) (port : LeasePort) :
    OneShot (openPortP conf fw t addr port) := by
  unfold openPortP
  split
  · exact .ret _ _
  · simp only
    split
    · exact .ret _ _
    · split
      · refine addLeaseP_oneShot fun r => ?_
        cases r <;> exact ⟨_, _, rfl⟩
      · exact .ret _ _
      · exact .ret _ _

theorem runNft_false {k : Kernel} {cmds : List NfCmd} {ok : Bool} (h : (runNft k cmds ok).1 = false) : (runNft k cmds ok).2 = k := by
  unfold runNft applyBatch at *
  cases ok
  · rfl
  · revert h
    cases applyCmds k cmds <;> simp

/-- Until a program is done, the ruleset has been changed by others only. -/
theorem OneShot.pending {P : Kernel → Kernel → Prop} (hP : Preorder' P) {p q : LProg} {k k' : Kernel} (ho : OneShot p)
    (h : LReach P p k q k') : (∃ r fw, q = .ret r fw) ∨ P k k' := by
  induction h with
  | refl => exact .inr (hP.refl _)
  | head h1 h2 ih =>
    cases h1 with
    | foreign h1 => exact (ih ho).imp id fun h => hP.trans _ _ _ h1 h
    | list ok => cases ho with | list _ hl => exact ih (hl _)
    | @apply cmds f k1 ok =>
      cases ho with
      | apply _ _ ht hf =>
        rename_i k1 _ _
        generalize hb : (runNft k1 cmds ok).1 = b at *
        cases b with
        | true =>
          obtain ⟨r, fw, ht⟩ := ht
          rw [ht] at h2
          exact .inl ⟨r, fw, (LReach.ret_inv hP h2).1⟩
        | false => rw [runNft_false hb] at ih; exact ih hf

end Letmein.Props
