import Verif.Props.Units
import Verif.Props.Flow
import Verif.Props.Seccomp

/-!
# Exact versions (5)
-/

namespace Letmein.Props

open Letmein Prog Spec

/-! ## C116: exactly the orders in which the ruleset comes first -/

theorem unitHost_kernel_setKernel (h : UnitHost) (k : Kernel) : (h.setKernel k).kernel = k := by cases h <;> rfl

theorem unitHost_setKernel_twice (h : UnitHost) (k k' : Kernel) : (h.setKernel k).setKernel k' = h.setKernel k' := by cases h <;> rfl

theorem unitHost_setKernel_self (h : UnitHost) : h.setKernel h.kernel = h := by cases h <;> rfl

theorem unitRun_join {conf : Config} {N : NftUnit} {h h' h'' : UnitHost} {a b : List UnitEv} (h1 : UnitRun conf N h a h') (h2 : UnitRun conf N h' b h'') :
    UnitRun conf N h (a ++ b) h'' := by
  induction h1 with
  | done => exact h2
  | ev hs _ ih => exact .ev hs (ih h2)
  | own hs _ ih => exact .own hs (ih h2)

/-- Where letmeinfwd.service is not stopped or started, only the ruleset changes. -/
theorem unitRun_ruleset (conf : Config) (N : NftUnit) : ∀ (evs : List UnitEv) (h : UnitHost), (∀ b, (SysUnit.fwd, b) ∉ evs) → ∃ k, UnitRun conf N h evs (h.setKernel k)
  | [], h, _ => ⟨h.kernel, by rw [unitHost_setKernel_self]; exact .done h⟩
  | (u, b) :: evs, h, hn => by
    have hn' : ∀ b, (SysUnit.fwd, b) ∉ evs := fun b hm => hn b (List.mem_cons_of_mem _ hm)
    have hskip : UnitStep conf N h (u, b) h → ∃ k, UnitRun conf N h ((u, b) :: evs) (h.setKernel k) := fun hs =>
      have ⟨k, hr⟩ := unitRun_ruleset conf N evs h hn'
      ⟨k, .ev hs hr⟩
    cases u with
    | lm => exact hskip (.lm h b)
    | lmSocket => exact hskip (.lmSocket h b)
    | fwdSocket => exact hskip (.fwdSocket h b)
    | fwd => exact absurd List.mem_cons_self (hn b)
    | nft =>
      cases b with
      | false =>
        obtain ⟨k, hr⟩ := unitRun_ruleset conf N evs (h.setKernel (N.stopped h.kernel)) hn'
        rw [unitHost_setKernel_twice] at hr
        exact ⟨k, .ev (.nftStop h) hr⟩
      | true =>
        obtain ⟨k, hr⟩ := unitRun_ruleset conf N evs (h.setKernel (N.loaded h.kernel)) hn'
        rw [unitHost_setKernel_twice] at hr
        exact ⟨k, .ev (.nftStart h) hr⟩

/-- Where neither is, nothing changes. -/
theorem unitRun_quiet (conf : Config) (N : NftUnit) : ∀ (evs : List UnitEv) (h : UnitHost), (∀ b, (SysUnit.fwd, b) ∉ evs) → (∀ b, (SysUnit.nft, b) ∉ evs) →
    UnitRun conf N h evs h
  | [], h, _, _ => .done h
  | (u, b) :: evs, h, h1, h2 => by
    have hr := unitRun_quiet conf N evs h (fun b hm => h1 b (List.mem_cons_of_mem _ hm)) (fun b hm => h2 b (List.mem_cons_of_mem _ hm))
    cases u with
    | lm => exact .ev (.lm h b) hr
    | lmSocket => exact .ev (.lmSocket h b) hr
    | fwdSocket => exact .ev (.fwdSocket h b) hr
    | fwd => exact absurd List.mem_cons_self (h1 b)
    | nft => exact absurd List.mem_cons_self (h2 b)

/-- After the start of a unit it is neither stopped nor started again. -/
theorem not_again {D : UnitDeps} {u v : SysUnit} {evs a b : List UnitEv} (h : RestartOrder D u evs) (he : evs = a ++ (v, true) :: b) (x : Bool) : (v, x) ∉ b := by
  subst he
  intro hm
  cases x with
  | true => exact (List.nodup_cons.1 (List.nodup_append.1 h.once).2.1).1 hm
  | false => exact (List.pairwise_cons.1 (List.pairwise_append.1 h.order).2.1).1 _ hm (.inl ⟨rfl, rfl, rfl⟩)

/-- Before the stop of a unit it is neither stopped nor started. -/
theorem not_before {D : UnitDeps} {u v : SysUnit} {evs a b : List UnitEv} (h : RestartOrder D u evs) (he : evs = a ++ (v, false) :: b) (x : Bool) : (v, x) ∉ a := by
  subst he
  intro hm
  cases x with
  | false => exact (List.nodup_append.1 h.once).2.2 _ hm _ List.mem_cons_self rfl
  | true => exact (List.pairwise_append.1 h.order).2.2 _ hm (v, false) List.mem_cons_self (.inl ⟨rfl, rfl, rfl⟩)

/-- **C116** (exactly). Whatever the settings of the units are, as long as letmeinfwd.service requires nftables.service: the control port is certain to be open after `systemctl restart
nftables.service` if and only if the start of letmeinfwd comes after that of nftables.service. In every other order there is a run, with every program working, after which letmeinfwd
runs and the control port is closed. (`hN`: the ruleset has an empty chain for letmeinfwd, `/repo/doc/nftables.conf:9-14`.) -/
theorem C116_iff (conf : Config) (n : NftNames) (hn : ChainOf conf n) (N : NftUnit) (hN : ∀ k, ownRules n (N.loaded k) = []) (D : UnitDeps)
    (hreq : SysUnit.nft ∈ D.requires .fwd) (evs : List UnitEv) (hD : RestartOrder D .nft evs) (f0 : FwdState) (pkt : Packet)
    (hv : familySees n.family pkt.src = true) (hc : toControlPort conf pkt) :
    (∀ f, UnitRun conf N (.up f0) evs (.up f) → f.phase = .running → chainAccepts n f.kernel pkt = true) ↔ Precedes evs (.nft, true) (.fwd, true) := by
  constructor
  · intro hall
    refine Classical.byContradiction fun hp => ?_
    -- letmeinfwd is stopped, started, and then the ruleset is loaded
    have m1 : ((.fwd, true) : UnitEv) ∈ evs := (hD.all _ _).2 (.requires .asked hreq)
    have m2 : ((.nft, true) : UnitEv) ∈ evs := (hD.all _ _).2 .asked
    have m3 : ((.fwd, false) : UnitEv) ∈ evs := (hD.all _ _).2 (.requires .asked hreq)
    obtain ⟨a, b, c, hsplit⟩ := precedes_of hD m3 m1 (.inl ⟨rfl, rfl, rfl⟩) (by simp)
    have hb : ∀ x, (SysUnit.fwd, x) ∉ b := by
      intro x hx
      have hnd := hD.once
      rw [hsplit, List.append_assoc] at hnd
      have h2 := (List.nodup_append.1 hnd).2.1
      rw [List.cons_append, List.nodup_cons] at h2
      cases x with
      | false => exact h2.1 (by simp [hx])
      | true => exact (List.nodup_append.1 h2.2).2.2 _ hx _ List.mem_cons_self rfl
    have ha := not_before hD (a := a) (v := .fwd) (b := b ++ (.fwd, true) :: c) (by rw [hsplit]; simp)
    have hc' := not_again hD (a := a ++ (.fwd, false) :: b) (v := .fwd) (b := c) (by rw [hsplit])
    have mc : ((.nft, true) : UnitEv) ∈ c := by
      rw [hsplit] at m2
      simp only [List.mem_append, List.mem_cons, List.append_assoc, List.cons_append] at m2
      rcases m2 with m2 | m2 | m2 | m2 | m2
      · obtain ⟨a1, a2, rfl⟩ := List.append_of_mem m2
        exact absurd ⟨a1, a2 ++ (.fwd, false) :: b, c, by rw [hsplit]; simp⟩ hp
      · cases m2
      · obtain ⟨b1, b2, rfl⟩ := List.append_of_mem m2
        exact absurd ⟨a ++ (.fwd, false) :: b1, b2, c, by rw [hsplit]; simp⟩ hp
      · cases m2
      · exact m2
    obtain ⟨c1, c2, rfl⟩ := List.append_of_mem mc
    have hq := not_again hD (a := a ++ (.fwd, false) :: b ++ (.fwd, true) :: c1) (v := .nft) (b := c2) (by rw [hsplit]; simp)
    obtain ⟨ka, ra⟩ := unitRun_ruleset conf N a (.up f0) ha
    obtain ⟨kb, rb⟩ := unitRun_ruleset conf N b (.off (fwdStep conf { f0 with kernel := ka } (.terminate true)).2.kernel) hb
    obtain ⟨s0, hs0⟩ := (C23_start_iff conf kb true).2 ⟨rfl, n, hn⟩
    obtain ⟨kc, rc⟩ := unitRun_ruleset conf N c1 (.up s0) (fun x hx => hc' x (by simp [hx]))
    have rq := unitRun_quiet conf N c2 (.up { s0 with kernel := N.loaded kc }) (fun x hx => hc' x (by simp [hx])) hq
    have hrun : UnitRun conf N (.up f0) evs (.up { s0 with kernel := N.loaded kc }) := by
      rw [hsplit, List.append_assoc]
      refine unitRun_join ra (.ev (.fwdStop _ true) ?_)
      exact unitRun_join rb (.ev (.fwdStart kb true s0 hs0) (unitRun_join rc (.ev (.nftStart _) rq)))
    have hp0 := (fwdStart_inv hs0).1
    have h := C86_locked_out conf n hn _ true s0 hs0 [.foreign (N.loaded kc)] ⟨(by intro l h; cases h), trivial⟩ hp0 (fun _ _ => rfl) (hN _) [] pkt
    rw [fwdRun_append] at h
    have h2 := hall _ hrun hp0
    rw [show chainAccepts n ({ s0 with kernel := N.loaded kc } : FwdState).kernel pkt = false from h.2] at h2
    cases h2
  · intro hp f hr hrun
    obtain ⟨k0, ok0, s0, ops, h1, h2, h3⟩ := C116_reload_partial conf n hn N _ evs f D hD hp hr
    exact (h3 pkt hrun).2 (.inl ⟨hv, hc⟩)

/-- The two orders of `Props/Units`: the control port is certain to be open in the one, not in the other. -/
example : (∀ f, UnitRun fwConf docNft (.up fwStarted) lateOrder (.up f) → f.phase = .running → chainAccepts fwNames f.kernel ⟨examplePeer, .tcp, 5800⟩ = true) ∧
    ¬ ∀ f, UnitRun fwConf docNft (.up fwStarted) earlyOrder (.up f) → f.phase = .running → chainAccepts fwNames f.kernel ⟨examplePeer, .tcp, 5800⟩ = true := by
  have key := fun evs hD => C116_iff fwConf fwNames ⟨by decide, rfl, rfl, by decide, by decide⟩ docNft (fun _ => rfl) shippedDeps (by simp [shippedDeps]) evs hD fwStarted
    ⟨examplePeer, .tcp, 5800⟩ rfl ⟨rfl, .inl ⟨rfl, rfl⟩⟩
  refine ⟨(key lateOrder lateOrder_ok).2 ⟨[(.lm, false), (.lmSocket, false), (.fwd, false), (.nft, false), (.fwdSocket, false)], [(.fwdSocket, true)],
    [(.lmSocket, true), (.lm, true)], rfl⟩, fun h => ?_⟩
  obtain ⟨a, b, c, h⟩ := (key earlyOrder earlyOrder_ok).1 h
  have hpw : earlyOrder.Pairwise (fun e e' => ¬ (e = (.nft, true) ∧ e' = (.fwd, true))) := by decide
  rw [h, List.append_assoc, List.pairwise_append] at hpw
  have h2 := hpw.2.1
  rw [List.cons_append, List.pairwise_cons] at h2
  exact h2.1 (.fwd, true) (by simp) ⟨rfl, rfl⟩

/-! ## C62: exactly when a program runs without a filter -/

/-- **C62** (exact). A program that gets past the installation runs without a filter exactly if the mode in force is off or there is no
support for the platform. -/
theorem C62_unfiltered_iff {allow : List Allow} {platform : Option SecPlatform} {opt : Option Seccomp} {conf : Config} {ok : Bool} {r : Option SecFilter}
    (h : installFor allow platform opt conf ok = .ok r) : r = none ↔ opt.getD conf.seccomp = .Off ∨ platform = none := by
  cases platform with
  | none =>
    rw [C62_negation] at h
    injection h with h
    exact ⟨fun _ => .inr rfl, fun _ => h.symm⟩
  | some p =>
    have := C62_mode_in_force_partial h
    cases hm : opt.getD conf.seccomp with
    | Off => rw [hm] at this; exact ⟨fun _ => .inl rfl, fun _ => this⟩
    | Kill =>
      rw [hm] at this
      obtain ⟨f, hf, -⟩ := this
      exact ⟨fun h => (by rw [hf] at h; cases h), fun h => (by rcases h with h | h <;> cases h)⟩
    | Log =>
      rw [hm] at this
      obtain ⟨f, hf, -⟩ := this
      exact ⟨fun h => (by rw [hf] at h; cases h), fun h => (by rcases h with h | h <;> cases h)⟩

/-! ## C111: exactly the messages at which the client stops -/

/-- **C111** (client, exact). The client ends without success at a message, or at the lack of one, exactly if no message came or the
operation is not the one that is due. -/
theorem C111_client_iff (mac : MacFn) (u : UserId) (r : ResourceId) (key : Key) (tr : List Ev) (v : R Unit)
    (ht : (knockSequence mac u r key).Trace tr (some v)) (pre : List Ev) (x : RecvOut) (post : List Ev)
    (hs : tr = pre ++ ⟨.recv, x⟩ :: post) :
    (post = [] ∧ v ≠ .ok ()) ↔ ((∀ m, x ≠ .msg m) ∨ ¬ ClientFlow false u r (pre ++ [⟨.recv, x⟩])) := by
  constructor
  · rintro ⟨hp, hv⟩
    have ob : ClientObl mac u r key (fun _ _ => True)
        (fun h v => v ≠ .ok () → ∀ q x, h = q ++ [⟨.recv, x⟩] → (∀ m, x ≠ .msg m) ∨ ¬ ClientFlow false u r h) := by
      constructor <;> intros
      case connFail => rename_i q x hq; have := congrArg List.getLast? hq; simp at this
      case saltFail => rename_i q x hq; have := congrArg List.getLast? hq; simp at this
      case knockFail => rename_i q x hq; have := congrArg List.getLast? hq; simp at this
      case recvFail =>
        rename_i s x hb _ q y hq
        have := congrArg List.getLast? hq
        rw [List.getLast?_concat, List.getLast?_concat] at this
        cases this
        cases x with
        | fail => exact .inl (by intro m h; cases h)
        | disconnected => exact .inl (by intro m h; cases h)
        | msg m =>
          refine .inr ?_
          have := hb m rfl
          rintro (h | ⟨ch, h, ho, -⟩ | ⟨ch, ci, h, -⟩)
          · change [m] = _ at h; cases h
          · change [m] = _ at h; cases h; exact this ho
          · change [m] = _ at h; cases h
      case salt2Fail => rename_i q x hq; have := congrArg List.getLast? hq; simp at this
      case respFail => rename_i q x hq; have := congrArg List.getLast? hq; simp at this
      case recv2Fail =>
        rename_i s ch s' x hop hb _ q y hq
        have := congrArg List.getLast? hq
        rw [List.getLast?_concat, List.getLast?_concat] at this
        cases this
        cases x with
        | fail => exact .inl (by intro m h; cases h)
        | disconnected => exact .inl (by intro m h; cases h)
        | msg m =>
          refine .inr ?_
          have := hb m rfl
          rintro (h | ⟨ch', h, ho, -⟩ | ⟨ch', ci, h, -, ho, -⟩)
          · change [ch, m] = _ at h; cases h
          · change [ch, m] = _ at h; cases h
          · change [ch, m] = _ at h; cases h; exact this ho
      case done => rename_i hv _ _ _; exact absurd rfl hv
      all_goals trivial
    have h1 := ((client_ok ob).sound ht).2 v rfl hv pre x (by subst hp; simpa using hs)
    subst hp
    rw [List.nil_append, hs] at h1
    exact h1
  · intro hb
    have := C111_client_partial mac u r key tr (some v) ht pre x post hs hb
    exact ⟨this.1, fun h => this.2 (by rw [h])⟩

/-- The client does not stop at the Challenge with other ids of `Props/Flow`. -/
example : ∃ tr pre post, (knockSequence toyMac ⟨0xA423DDA7⟩ ⟨0xBC5D8077⟩ (Arr.replicate 32 7)).Trace tr (some (.ok ())) ∧
    tr = pre ++ ⟨.recv, .msg strangeChallenge⟩ :: post ∧ post ≠ [] := by
  have ht := play_trace (knockSequence toyMac ⟨0xA423DDA7⟩ ⟨0xBC5D8077⟩ (Arr.replicate 32 7)) strangeScript
  have hd : (play (knockSequence toyMac ⟨0xA423DDA7⟩ ⟨0xBC5D8077⟩ (Arr.replicate 32 7)) strangeScript).2 = some (.ok ()) := by decide +kernel
  rw [hd] at ht
  refine ⟨_, (play (knockSequence toyMac ⟨0xA423DDA7⟩ ⟨0xBC5D8077⟩ (Arr.replicate 32 7)) strangeScript).1.take 3,
    (play (knockSequence toyMac ⟨0xA423DDA7⟩ ⟨0xBC5D8077⟩ (Arr.replicate 32 7)) strangeScript).1.drop 4, ht, ?_, ?_⟩
  · decide +kernel
  · decide +kernel

/-- No filter on a platform without support although the mode is kill; one filter with support. -/
example : installFor letmeindAllow none (some .Kill) exampleConf true = .ok none ∧
    ∃ f, installFor letmeindAllow (some ⟨true, true⟩) (some .Kill) exampleConf true = .ok (some f) := by
  refine ⟨C62_negation _ _ _ _, ?_⟩
  have h : (match installFor letmeindAllow (some ⟨true, true⟩) (some .Kill) exampleConf true with | .ok (some _) => true | _ => false) = true := by decide +kernel
  split at h
  · exact ⟨_, by assumption⟩
  · cases h

end Letmein.Props
