import Verif.Model.Units
import Verif.Props.Reload

/-!
# C116: restarting the units as the README says

`systemctl restart letmeind.service` restarts letmeind only, and `systemctl restart nftables.service` restarts everything. But
letmeinfwd.service is not ordered after nftables.service: if it is started before the ruleset is loaded, the rule of the control port is lost,
and nothing restores it.
-/

namespace Letmein.Props
open Letmein Prog Spec

/-! ## Who is restarted, in which order -/

/-- **C116** (who is restarted). Restarting letmeind.service, or its socket, restarts both, not letmeinfwd; restarting letmeinfwd.service, or its socket,
restarts all of letmein; restarting nftables.service restarts everything. -/
theorem C116_who (v : SysUnit) :
    (Restarted shippedDeps .lm v ↔ v = .lm ∨ v = .lmSocket) ∧
    (Restarted shippedDeps .lmSocket v ↔ v = .lm ∨ v = .lmSocket) ∧
    (Restarted shippedDeps .fwd v ↔ v ≠ .nft) ∧
    (Restarted shippedDeps .fwdSocket v ↔ v ≠ .nft) ∧
    Restarted shippedDeps .nft v := by
  have hfwd : ∀ u, Restarted shippedDeps u .fwd → ∀ v, v ≠ .nft → Restarted shippedDeps u v := by
    intro u h v hv
    have h1 : Restarted shippedDeps u .lm := .requires h (by simp [shippedDeps])
    have h2 : Restarted shippedDeps u .lmSocket := .partOf h1 (by simp [shippedDeps])
    have h3 : Restarted shippedDeps u .fwdSocket := .partOf h (by simp [shippedDeps])
    cases v <;> first | assumption | exact absurd rfl hv
  have hlm : ∀ u, u = .lm ∨ u = .lmSocket → Restarted shippedDeps u v → v = .lm ∨ v = .lmSocket := by
    intro u hu h
    induction h with
    | asked => exact hu
    | @requires v w _ hr ih => rcases ih with rfl | rfl <;> cases w <;> simp [shippedDeps] at hr
    | @partOf v w _ hr ih => rcases ih with rfl | rfl <;> cases w <;> simp [shippedDeps] at hr <;> simp
  have hnft : ∀ u, u ≠ .nft → Restarted shippedDeps u v → v ≠ .nft := by
    rintro u hu h rfl
    cases h with
    | asked => exact hu rfl
    | requires _ hr => simp [shippedDeps] at hr
    | partOf _ hr => simp [shippedDeps] at hr
  refine ⟨⟨hlm _ (.inl rfl), ?_⟩, ⟨hlm _ (.inr rfl), ?_⟩, ⟨hnft _ (by decide), hfwd _ .asked v⟩,
    ⟨hnft _ (by decide), hfwd _ (.partOf .asked (by simp [shippedDeps])) v⟩, ?_⟩
  · rintro (rfl | rfl)
    · exact .asked
    · exact .partOf .asked (by simp [shippedDeps])
  · rintro (rfl | rfl)
    · exact .partOf .asked (by simp [shippedDeps])
    · exact .asked
  · by_cases hv : v = .nft
    · subst hv; exact .asked
    · exact hfwd _ (.requires .asked (by simp [shippedDeps])) v hv

/-- The one comes before the other. -/
def Precedes (evs : List UnitEv) (e e' : UnitEv) : Prop := ∃ a b c, evs = a ++ e :: b ++ e' :: c

theorem precedes_of {D : UnitDeps} {u : SysUnit} {evs : List UnitEv} (h : RestartOrder D u evs) {e e' : UnitEv} (he : e ∈ evs) (he' : e' ∈ evs)
    (hm : MustPrecede D e e') (hne : e ≠ e') : Precedes evs e e' := by
  obtain ⟨a, b, rfl⟩ := List.append_of_mem he
  rw [List.mem_append, List.mem_cons] at he'
  rcases he' with he' | rfl | he'
  · exfalso
    have := (List.pairwise_append.1 h.order).2.2 e' he' e (by simp)
    exact this hm
  · exact absurd rfl hne
  · obtain ⟨c, d, rfl⟩ := List.append_of_mem he'
    exact ⟨a, c, d, by simp⟩

/-- **C116** (order). However the units are restarted, each is stopped before it is started, letmeind is stopped before letmeinfwd and started after
it, and each service is started after its socket. -/
theorem C116_order {u : SysUnit} {evs : List UnitEv} (h : RestartOrder shippedDeps u evs) :
    (∀ v, Restarted shippedDeps u v → Precedes evs (v, false) (v, true)) ∧
    (Restarted shippedDeps u .fwd → Precedes evs (.lm, false) (.fwd, false) ∧ Precedes evs (.fwd, true) (.lm, true) ∧
      Precedes evs (.fwdSocket, true) (.fwd, true)) ∧
    (Restarted shippedDeps u .lm → Precedes evs (.lmSocket, true) (.lm, true)) := by
  refine ⟨fun v hv => ?_, fun hv => ?_, fun hv => ?_⟩
  · exact precedes_of h ((h.all v _).2 hv) ((h.all v _).2 hv) (.inl ⟨rfl, rfl, rfl⟩) (by simp)
  · have h1 : Restarted shippedDeps u .lm := .requires hv (by simp [shippedDeps])
    have h3 : Restarted shippedDeps u .fwdSocket := .partOf hv (by simp [shippedDeps])
    exact ⟨precedes_of h ((h.all _ _).2 h1) ((h.all _ _).2 hv) (.inr (.inr ⟨by simp [shippedDeps], rfl⟩)) (by simp),
      precedes_of h ((h.all _ _).2 hv) ((h.all _ _).2 h1) (.inr (.inl ⟨by simp [shippedDeps], rfl⟩)) (by simp),
      precedes_of h ((h.all _ _).2 h3) ((h.all _ _).2 hv) (.inr (.inl ⟨by simp [shippedDeps], rfl⟩)) (by simp)⟩
  · have h2 : Restarted shippedDeps u .lmSocket := .partOf hv (by simp [shippedDeps])
    exact precedes_of h ((h.all _ _).2 h2) ((h.all _ _).2 hv) (.inr (.inl ⟨by simp [shippedDeps], rfl⟩)) (by simp)

/-! ## What becomes of the ruleset -/

/-- letmeinfwd has been started since, and nobody else has changed its chain. -/
def FreshHost (conf : Config) (h : UnitHost) : Prop :=
  ∀ f, h = .up f → ∃ k0 ok0 s0 ops, fwdStart conf k0 ok0 = some s0 ∧ f = (fwdRun conf s0 ops).2 ∧
    ∀ op ∈ ops, (∃ rx now ok, op = .request rx now ok) ∨ ∃ now env, op = .maintain now env ∧ env.afterList = id ∧ env.beforeRebuild = id

theorem freshHost_start {conf : Config} {k : Kernel} {ok : Bool} {f : FwdState} (h : fwdStart conf k ok = some f) : FreshHost conf (.up f) := by
  rintro _ ⟨⟩
  exact ⟨k, ok, f, [], h, rfl, by simp⟩

theorem freshHost_op {conf : Config} {f : FwdState} (h : FreshHost conf (.up f)) {op : FwdOp}
    (ho : (∃ rx now ok, op = .request rx now ok) ∨ ∃ now env, op = .maintain now env ∧ env.afterList = id ∧ env.beforeRebuild = id) : FreshHost conf (.up (fwdStep conf f op).2) := by
  rintro _ ⟨⟩
  obtain ⟨k0, ok0, s0, ops, h1, h2, h3⟩ := h _ rfl
  refine ⟨k0, ok0, s0, ops ++ [op], h1, by rw [fwdRun_append, h2]; rfl, ?_⟩
  intro o hm
  rw [List.mem_append, List.mem_singleton] at hm
  rcases hm with hm | rfl
  · exact h3 o hm
  · exact ho

theorem freshHost_own {conf : Config} {h h' : UnitHost} (hf : FreshHost conf h) (hs : OwnStep conf h h') : FreshHost conf h' := by
  cases hs with
  | request f rx now ok => exact freshHost_op hf (.inl ⟨rx, now, ok, rfl⟩)
  | maintain f now env h1 h2 => exact freshHost_op hf (.inr ⟨now, env, rfl, h1, h2⟩)
  | again k ok f h => exact freshHost_start h

/-- As long as nftables.service is not touched, a fresh letmeinfwd stays so. -/
theorem freshHost_run {conf : Config} {N : NftUnit} {h h' : UnitHost} {evs : List UnitEv} (hr : UnitRun conf N h evs h') (hf : FreshHost conf h)
    (hn : ∀ b, (SysUnit.nft, b) ∉ evs) : FreshHost conf h' := by
  induction hr with
  | done => exact hf
  | @ev h h' h'' e evs hs _ ih =>
    refine ih ?_ (fun b hm => hn b (List.mem_cons_of_mem _ hm))
    cases hs with
    | nftStop => exact absurd List.mem_cons_self (hn false)
    | nftStart => exact absurd List.mem_cons_self (hn true)
    | fwdStop f ok => rintro _ ⟨⟩
    | fwdCancel => rintro _ ⟨⟩
    | fwdStart k ok f h => exact freshHost_start h
    | fwdFail => rintro _ ⟨⟩
    | lm => exact hf
    | lmSocket => exact hf
    | fwdSocket => exact hf
  | own hs _ ih => exact ih (freshHost_own hf hs) hn

theorem unitRun_append {conf : Config} {N : NftUnit} {a b : List UnitEv} {h h' : UnitHost} (hr : UnitRun conf N h (a ++ b) h') :
    ∃ m, UnitRun conf N h a m ∧ UnitRun conf N m b h' := by
  generalize he : a ++ b = evs at hr
  induction hr generalizing a with
  | done h =>
    obtain ⟨rfl, rfl⟩ := List.append_eq_nil_iff.1 he
    exact ⟨h, .done h, .done h⟩
  | @ev h h1 h2 e evs hs hr ih =>
    cases a with
    | nil =>
      simp only [List.nil_append] at he
      subst he
      exact ⟨h, .done h, .ev hs hr⟩
    | cons x a =>
      simp only [List.cons_append, List.cons.injEq] at he
      obtain ⟨rfl, rfl⟩ := he
      obtain ⟨m, h1, h2⟩ := ih rfl
      exact ⟨m, .ev hs h1, h2⟩
  | own hs hr ih =>
    obtain ⟨m, h1, h2⟩ := ih he
    exact ⟨m, .own hs h1, h2⟩

/-- From the start of the unit on. -/
theorem freshHost_from_start {conf : Config} {N : NftUnit} {h h' : UnitHost} {evs : List UnitEv} (hr : UnitRun conf N h ((.fwd, true) :: evs) h')
    (hn : ∀ b, (SysUnit.nft, b) ∉ evs) : FreshHost conf h' := by
  generalize he : ((.fwd, true) : UnitEv) :: evs = l at hr
  induction hr with
  | done => cases he
  | ev hs hr _ =>
    injection he with h1 h2
    subst h1 h2
    refine freshHost_run hr ?_ hn
    cases hs with
    | fwdStart k ok f h => exact freshHost_start h
    | fwdFail => rintro _ ⟨⟩
  | own _ _ ih => exact ih he

theorem fair_of_ops {conf : Config} {n : NftNames} : ∀ (ops : List FwdOp) (s : FwdState),
    (∀ op ∈ ops, (∃ rx now ok, op = FwdOp.request rx now ok) ∨ ∃ now env, op = .maintain now env ∧ env.afterList = id ∧ env.beforeRebuild = id) → Fair conf n s ops
  | [], _, _ => trivial
  | op :: ops, s, h => by
    refine ⟨?_, fair_of_ops ops _ (fun o ho => h o (List.mem_cons_of_mem _ ho))⟩
    rcases h op (by simp) with ⟨rx, now, ok, rfl⟩ | ⟨now, env, rfl, h1, h2⟩
    · trivial
    · exact ⟨fun k => by rw [h1]; exact ⟨rfl, Nat.le_refl _⟩, fun k => by rw [h2]; exact ⟨rfl, Nat.le_refl _⟩⟩

/-- **C116** (partial: the ruleset is loaded before letmeinfwd is started). The units are stopped and started in an order in which the start of
letmeinfwd comes after that of nftables.service. If letmeinfwd runs in the end, at once or after further attempts, its chain accepts exactly
the packets to the control port and those that were granted since. Missing from the full statement: the other orders. -/
theorem C116_reload_partial (conf : Config) (n : NftNames) (hn : ChainOf conf n) (N : NftUnit) (h : UnitHost) (evs : List UnitEv) (f : FwdState)
    (D : UnitDeps) (hD : RestartOrder D .nft evs) (hp : Precedes evs (.nft, true) (.fwd, true)) (hr : UnitRun conf N h evs (.up f)) :
    ∃ k0 ok0 s0 ops, fwdStart conf k0 ok0 = some s0 ∧ f = (fwdRun conf s0 ops).2 ∧
      ∀ pkt, f.phase = .running → (chainAccepts n f.kernel pkt = true ↔
        (familySees n.family pkt.src = true ∧ toControlPort conf pkt) ∨
        ∃ addr p e, Grants.none.after conf.nftTimeout (fwdRun conf s0 ops).1 addr p = some e ∧ covers addr p pkt) := by
  obtain ⟨a, b, c, rfl⟩ := hp
  obtain ⟨m, _, h2⟩ := unitRun_append hr
  have hns : ∀ x, (SysUnit.nft, x) ∉ c := by
    intro x hx
    have hnd := hD.once
    cases x with
    | true =>
      rw [List.append_assoc, List.nodup_append] at hnd
      have h3 := hnd.2.1
      rw [List.cons_append, List.nodup_cons] at h3
      exact h3.1 (by simp [hx])
    | false =>
      have hpw := hD.order
      rw [List.append_assoc, List.pairwise_append] at hpw
      have h3 := hpw.2.1
      rw [List.cons_append, List.pairwise_cons] at h3
      exact h3.1 (.nft, false) (by simp [hx]) (.inl ⟨rfl, rfl, rfl⟩)
  obtain ⟨k0, ok0, s0, ops, e1, e2, e3⟩ := freshHost_from_start h2 hns f rfl
  refine ⟨k0, ok0, s0, ops, e1, e2, fun pkt hrun => ?_⟩
  subst e2
  exact C19_chain_equals_grants conf n hn k0 ok0 s0 e1 ops (fair_of_ops ops s0 e3) hrun pkt

/-- **C116** (what is missing in the unit file). With `After=nftables.service` in letmeinfwd.service every order is such an order. -/
theorem C116_after (D : UnitDeps) (hr : SysUnit.nft ∈ D.requires .fwd) (ha : SysUnit.nft ∈ D.after .fwd) (evs : List UnitEv)
    (h : RestartOrder D .nft evs) : Precedes evs (.nft, true) (.fwd, true) :=
  precedes_of h ((h.all _ _).2 .asked) ((h.all _ _).2 (.requires .asked hr)) (.inr (.inl ⟨ha, rfl⟩)) (by simp)

/-- An order that the units as shipped allow. -/
def earlyOrder : List UnitEv :=
  [(.lm, false), (.lmSocket, false), (.fwd, false), (.fwdSocket, false), (.fwdSocket, true), (.fwd, true), (.nft, false), (.nft, true),
    (.lmSocket, true), (.lm, true)]

instance (D : UnitDeps) (e e' : UnitEv) : Decidable (MustPrecede D e e') := by unfold MustPrecede; infer_instance

theorem earlyOrder_ok : RestartOrder shippedDeps .nft earlyOrder where
  once := by decide
  all v b := ⟨fun _ => (C116_who v).2.2.2.2, fun _ => by cases v <;> cases b <;> decide⟩
  order := by decide

/-- An order that is good. -/
def lateOrder : List UnitEv :=
  [(.lm, false), (.lmSocket, false), (.fwd, false), (.nft, false), (.fwdSocket, false), (.nft, true), (.fwdSocket, true), (.fwd, true),
    (.lmSocket, true), (.lm, true)]

theorem lateOrder_ok : RestartOrder shippedDeps .nft lateOrder where
  once := by decide
  all v b := ⟨fun _ => (C116_who v).2.2.2.2, fun _ => by cases v <;> cases b <;> decide⟩
  order := by decide

/-- **C116** (negation). Whatever the configuration, and whatever the state of letmeinfwd: `systemctl restart nftables.service` may be carried out in
an order that the unit files allow, with every program working, after which letmeinfwd runs but no packet passes its chain, not even to the control
port, however often the maintenance runs. Only that the ruleset that is loaded has no rules in letmeinfwd's chain is used, as
`/repo/doc/nftables.conf:9-14` asks for. -/
theorem C116_negation (conf : Config) (n : NftNames) (hn : ChainOf conf n) (N : NftUnit) (hN : ∀ k, ownRules n (N.loaded k) = []) (f0 : FwdState) :
    ∃ evs f, RestartOrder shippedDeps .nft evs ∧ UnitRun conf N (.up f0) evs (.up f) ∧ f.phase = .running ∧
      ∀ (runs : List (Nat × NftEnv)) (pkt : Packet),
        (fwdRun conf f (runs.map (fun x => FwdOp.maintain x.1 x.2))).2.phase = .running ∧
        chainAccepts n (fwdRun conf f (runs.map (fun x => FwdOp.maintain x.1 x.2))).2.kernel pkt = false := by
  obtain ⟨s0, hs0⟩ := (C23_start_iff conf (fwdStep conf f0 (.terminate true)).2.kernel true).2 ⟨rfl, n, hn⟩
  have hp := (fwdStart_inv hs0).1
  let k := N.loaded (N.stopped s0.kernel)
  refine ⟨earlyOrder, { s0 with kernel := k }, earlyOrder_ok, ?_, hp, fun runs pkt => ?_⟩
  · refine .ev (.lm _ _) (.ev (.lmSocket _ _) (.ev (.fwdStop f0 true) (.ev (.fwdSocket _ _) (.ev (.fwdSocket _ _)
      (.ev (.fwdStart _ true s0 hs0) (.ev (.nftStop _) (.ev (.nftStart _) (.ev (.lmSocket _ _) (.ev (.lm _ _) (.done _))))))))))
  · have h := C86_locked_out conf n hn _ true s0 hs0 [.foreign k] ⟨(by intro l h; cases h), trivial⟩ hp (fun _ _ => rfl) (hN _) runs pkt
    rw [fwdRun_append] at h
    exact h

/-! ## Concrete cases -/

/-- `nftables.service` as in Debian, with the documented ruleset. -/
def docNft : NftUnit where
  stopped k := { k with rules := [], gen := k.gen + 1 }
  loaded k := { reloadedKernel with gen := k.gen + 1 }

example : ∃ evs f, RestartOrder shippedDeps .nft evs ∧ UnitRun fwConf docNft (.up fwStarted) evs (.up f) ∧ f.phase = .running ∧
    ∀ (runs : List (Nat × NftEnv)) (pkt : Packet),
      (fwdRun fwConf f (runs.map (fun x => FwdOp.maintain x.1 x.2))).2.phase = .running ∧
      chainAccepts fwNames (fwdRun fwConf f (runs.map (fun x => FwdOp.maintain x.1 x.2))).2.kernel pkt = false :=
  C116_negation fwConf fwNames ⟨by decide, rfl, rfl, by decide, by decide⟩ docNft (fun _ => rfl) fwStarted

/-- In the good order the control port is open again, also if the first attempt to start letmeinfwd fails. -/
example : ∃ f, UnitRun fwConf docNft (.up fwStarted) lateOrder (.up f) ∧ Precedes lateOrder (.nft, true) (.fwd, true) ∧
    chainAccepts fwNames f.kernel ⟨examplePeer, .tcp, 5800⟩ = true := by
  have hfail : ∀ k, fwdStart fwConf k false = none := by
    intro k
    cases h : fwdStart fwConf k false with
    | none => rfl
    | some f => exact absurd ((C23_start_iff fwConf k false).1 ⟨f, h⟩).1 (by simp)
  obtain ⟨s0, hs0⟩ := (C23_start_iff fwConf (docNft.loaded (docNft.stopped (fwdStep fwConf fwStarted (.terminate true)).2.kernel)) true).2
    ⟨rfl, fwNames, by decide, rfl, rfl, by decide, by decide⟩
  have hrun : UnitRun fwConf docNft (.up fwStarted) lateOrder (.up s0) := by
    exact .ev (.lm _ _) (.ev (.lmSocket _ _) (.ev (.fwdStop fwStarted true) (.ev (.nftStop _) (.ev (.fwdSocket _ _) (.ev (.nftStart _) (.ev (.fwdSocket _ _)
      (.ev (.fwdFail _ false (hfail _)) (.own (.again _ true s0 hs0) (.ev (.lmSocket _ _) (.ev (.lm _ _) (.done _)))))))))))
  have hpre : Precedes lateOrder (.nft, true) (.fwd, true) :=
    ⟨[(.lm, false), (.lmSocket, false), (.fwd, false), (.nft, false), (.fwdSocket, false)], [(.fwdSocket, true)], [(.lmSocket, true), (.lm, true)], rfl⟩
  refine ⟨s0, hrun, hpre, ?_⟩
  obtain ⟨_, _, _, _, _, _, h⟩ := C116_reload_partial fwConf fwNames ⟨by decide, rfl, rfl, by decide, by decide⟩ docNft _ _ s0 shippedDeps lateOrder_ok hpre hrun
  exact (h _ (fwdStart_inv hs0).1).2 (.inl ⟨rfl, rfl, .inl ⟨rfl, rfl⟩⟩)

/-- The units with the missing setting. -/
def fixedDeps : UnitDeps := { shippedDeps with after := fun u => match u with | .fwd => [.fwdSocket, .nft] | u => shippedDeps.after u }

example : RestartOrder fixedDeps .nft lateOrder ∧ ¬ RestartOrder fixedDeps .nft earlyOrder := by
  refine ⟨⟨by decide, fun v b => ⟨fun _ => ?_, fun _ => by cases v <;> cases b <;> decide⟩, by decide⟩, fun h => absurd h.order (by decide)⟩
  have hfwd : Restarted fixedDeps .nft .fwd := .requires .asked (by simp [fixedDeps, shippedDeps])
  have hlm : Restarted fixedDeps .nft .lm := .requires hfwd (by simp [fixedDeps, shippedDeps])
  have h2 : Restarted fixedDeps .nft .lmSocket := .partOf hlm (by simp [fixedDeps, shippedDeps])
  have h3 : Restarted fixedDeps .nft .fwdSocket := .partOf hfwd (by simp [fixedDeps, shippedDeps])
  cases v <;> first | assumption | exact .asked

example : Precedes lateOrder (.fwd, true) (.lm, true) := ((C116_order lateOrder_ok).2.1 ((C116_who .fwd).2.2.2.2)).2.1

end Letmein.Props
