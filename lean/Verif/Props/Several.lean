import Verif.Lemmas.Several
import Verif.Props.Firewall

/-!
# Properties: several runs of letmeinfwd

C100: one run after the other. C101: a run while another one is there.
-/

namespace Letmein.Props

open Letmein Prog Spec

/-! ## C100 -/

theorem ended_step {conf : Config} {n : NftNames} {s : FwdState} (hd : s.phase.alive = false) (op : FwdOp) (hf : OpFair n s op) :
    (fwdStep conf s op).2.phase = s.phase ∧ OwnUnchanged n s.kernel (fwdStep conf s op).2.kernel := by
  obtain ⟨phase, fw, k⟩ := s
  cases op with
  | foreign k' => exact ⟨rfl, hf⟩
  | reorder l => exact ⟨rfl, rfl, Nat.le_refl _⟩
  | terminate ok => cases phase <;> first | exact ⟨rfl, rfl, Nat.le_refl _⟩ | cases hd
  | request rx now ok => cases phase <;> first | exact ⟨rfl, rfl, Nat.le_refl _⟩ | cases hd
  | maintain now env => cases phase <;> first | exact ⟨rfl, rfl, Nat.le_refl _⟩ | cases hd

theorem fwdInv_unchanged {conf : Config} {n : NftNames} {ph : FwdPhase} {fw : NftFirewall} {k k' : Kernel} {g : Grants}
    (h : FwdInv conf n ⟨ph, fw, k⟩ g) (u : OwnUnchanged n k k') : FwdInv conf n ⟨ph, fw, k'⟩ g := by
  cases ph with
  | running => exact ⟨h.1, h.2.1, h.2.2.1.unchanged u, h.2.2.2⟩
  | stopping => exact ⟨h.1, h.2.1, h.2.2.of_unchanged u⟩
  | stopped => exact h
  | crashed => exact h

/-- All runs but the latest have ended, and the latest, if it is there, has the chain to itself. -/
structure LatestInv (n : NftNames) (h : FwHost) (g : Grants) : Prop where
  before : ∀ (i : Nat) (p : FwInstance), h.procs[i]? = some p → i + 1 ≠ h.procs.length → p.phase.alive = false
  last : ∀ (i : Nat) (p : FwInstance), h.procs[i]? = some p → i + 1 = h.procs.length → p.phase.alive = true →
    ChainOf p.conf n ∧ FwdInv p.conf n (p.state h.kernel) g

theorem LatestInv.step {n : NftNames} {h : FwHost} {g : Grants} (hi : LatestInv n h g) (e : HostEvent) (hf : HostEventFair n h e)
    (hn : ∀ conf ok, e = .start conf ok → ChainOf conf n) (ho : ∀ conf ok, e = .start conf ok → ∀ p ∈ h.procs, p.phase.alive = false) :
    LatestInv n (hostStep h e).2 (latestStep h g e (hostStep h e).1) := by
  cases e with
  | start conf ok =>
    have hn := hn conf ok rfl
    have ho := ho conf ok rfl
    rcases start_cases hn h.kernel ok with ⟨s, h1, h2, h3, h4⟩ | ⟨h1, h2⟩
    · simp only [hostStep, h1, latestStep]
      constructor
      · intro i p hp hne
        simp only [List.length_append, List.length_singleton] at hne hp
        have hlt := (List.getElem?_eq_some_iff.1 hp).1
        simp only [List.length_append, List.length_singleton] at hlt
        rw [List.getElem?_append_left (by omega)] at hp
        exact ho p (List.mem_of_getElem? hp)
      · intro i p hp heq hal
        simp only [List.length_append, List.length_singleton] at heq hp
        rw [List.getElem?_append_right (by omega), show i - h.procs.length = 0 by omega] at hp
        simp at hp
        subst hp
        refine ⟨hn, ?_⟩
        simp only [FwInstance.state, FwdInv, h2, h3]
        exact ⟨⟨by simp, by simp, by simp⟩, trivial, h4, by intro a p e; simp [Grants.none]⟩
    · simp only [hostStep, h1, latestStep, h2]
      exact hi
  | act i op =>
    cases hp : h.procs[i]? with
    | none => simp only [hostStep, hp, latestStep]; exact hi
    | some p =>
      have hfair := hf p hp
      have hlp : i < h.procs.length := (List.getElem?_eq_some_iff.1 hp).1
      simp only [hostStep, hp, latestStep]
      by_cases hlast : i + 1 = h.procs.length
      · rw [if_pos hlast]
        constructor
        · intro j q hq hne
          simp only [List.length_set] at hne hq
          rcases set_get hq with ⟨rfl, _⟩ | ⟨_, hq⟩
          · exact absurd hlast hne
          · exact hi.before j q hq hne
        · intro j q hq heq hal
          simp only [List.length_set] at heq hq
          rcases set_get hq with ⟨rfl, rfl⟩ | ⟨hne, _⟩
          · by_cases hpa : p.phase.alive = true
            · obtain ⟨h1, h2⟩ := hi.last i p hp hlast hpa
              exact ⟨h1, fwdStep_inv h1 h2 op hfair⟩
            · have := (ended_step (conf := p.conf) (n := n) (s := p.state h.kernel) (by simpa [FwInstance.state] using hpa) op hfair).1
              rw [this] at hal
              exact absurd hal hpa
          · exact absurd (by omega) hne
      · rw [if_neg hlast]
        have hd := hi.before i p hp hlast
        obtain ⟨h1, h2⟩ := ended_step (conf := p.conf) (n := n) (s := p.state h.kernel) hd op hfair
        constructor
        · intro j q hq hne
          simp only [List.length_set] at hne hq
          rcases set_get hq with ⟨rfl, rfl⟩ | ⟨_, hq⟩
          · simp only; rw [h1]; exact hd
          · exact hi.before j q hq hne
        · intro j q hq heq hal
          simp only [List.length_set] at heq hq
          rcases set_get hq with ⟨rfl, rfl⟩ | ⟨hne, hq⟩
          · exact absurd heq hlast
          · obtain ⟨h3, h4⟩ := hi.last j q hq heq hal
            exact ⟨h3, fwdInv_unchanged h4 h2⟩
  | kill i =>
    cases hp : h.procs[i]? with
    | none => simp only [hostStep, hp, latestStep]; exact hi
    | some p =>
      simp only [hostStep, hp, latestStep]
      constructor
      · intro j q hq hne
        simp only [List.length_set] at hne hq
        rcases set_get hq with ⟨rfl, rfl⟩ | ⟨_, hq⟩
        · rfl
        · exact hi.before j q hq hne
      · intro j q hq heq hal
        simp only [List.length_set] at heq hq
        rcases set_get hq with ⟨rfl, rfl⟩ | ⟨_, hq⟩
        · cases hal
        · exact hi.last j q hq heq hal
  | others k =>
    simp only [hostStep, latestStep]
    exact ⟨hi.before, fun i p hp heq hal => ⟨(hi.last i p hp heq hal).1, fwdInv_unchanged (hi.last i p hp heq hal).2 hf⟩⟩

theorem LatestInv.run {n : NftNames} (evs : List HostEvent) {h : FwHost} {g : Grants} (hi : LatestInv n h g) (hf : HostFair n h evs)
    (hn : SameChain n evs) (ho : OneAtATime h evs) : LatestInv n (hostRun h evs) (latestGrants h g evs) := by
  induction evs generalizing h g with
  | nil => exact hi
  | cons e rest ih =>
    exact ih (hi.step e hf.1 (fun conf ok he => hn conf ok (by rw [he]; simp)) ho.1) hf.2
      (fun conf ok hm => hn conf ok (List.mem_cons_of_mem _ hm)) ho.2

/-- **C100** (the latest run only). However often letmeinfwd has been started, killed, has crashed or has ended, with whatever configurations naming the same chain, and
whatever was in the chain in the beginning: as long as one is started only when none is there, and other programs leave the chain alone, the chain of a running
letmeinfwd accepts exactly the packets to its own control port and those that its own answers allow. -/
theorem C100_restart (n : NftNames) (k : Kernel) (evs : List HostEvent) (hf : HostFair n ⟨[], k⟩ evs) (hn : SameChain n evs)
    (ho : OneAtATime ⟨[], k⟩ evs) (i : Nat) (p : FwInstance) (hp : (hostRun ⟨[], k⟩ evs).procs[i]? = some p) (hr : p.phase = .running) :
    i + 1 = (hostRun ⟨[], k⟩ evs).procs.length ∧
    AcceptsExactly n (hostRun ⟨[], k⟩ evs).kernel p.conf (latestGrants ⟨[], k⟩ Grants.none evs) := by
  have hi := LatestInv.run evs (h := ⟨[], k⟩) (g := Grants.none) ⟨by simp, by simp⟩ hf hn ho
  have hal : p.phase.alive = true := by rw [hr]; rfl
  have hlast : i + 1 = (hostRun ⟨[], k⟩ evs).procs.length := by
    apply Classical.byContradiction
    intro hne
    rw [hi.before i p hp hne] at hal
    cases hal
  refine ⟨hlast, ?_⟩
  obtain ⟨_, h2⟩ := hi.last i p hp hlast hal
  simp only [FwInstance.state, FwdInv, hr] at h2
  obtain ⟨h3, _, h4, h5⟩ := h2
  intro pkt
  rw [chainOk_accepts h3 h4]
  refine or_congr Iff.rfl ⟨?_, ?_⟩
  · rintro ⟨e, he, hc⟩
    exact ⟨e.1.1, e.1.2, e.2.timeout, (h5 _ _ _).2 ⟨e.2, he, rfl⟩, hc⟩
  · rintro ⟨a, q, e, hg, hc⟩
    obtain ⟨l, hm, _⟩ := (h5 a q e).1 hg
    exact ⟨_, hm, hc⟩

/-- **C100** (a start closes). Whoever is there and whatever is in the chain: after a start with success the chain accepts the packets to the control port of the new
configuration and nothing else. -/
theorem C100_start (n : NftNames) (h h' : FwHost) (conf : Config) (ok : Bool) (hn : ChainOf conf n)
    (hs : hostStep h (.start conf ok) = (.started, h')) : AcceptsExactly n h'.kernel conf Grants.none := by
  rcases start_cases hn h.kernel ok with ⟨s, h1, h2, h3, h4⟩ | ⟨h1, h2⟩
  · simp only [hostStep, h1] at hs
    injection hs with _ hs
    subst hs
    intro pkt
    rw [chainOk_accepts (leases := []) ⟨by simp, by simp, by simp⟩ h4]
    simp [Grants.none]
  · simp only [hostStep, h1] at hs
    injection hs with hs
    cases hs

theorem ownRules_foreign {n m : NftNames} (hne : m ≠ n) (k : Kernel) : ownRules n k = (foreignRules m k).filter (fun r => Own n r) := by
  unfold ownRules foreignRules
  rw [List.filter_filter]
  apply List.filter_congr
  intro r _
  by_cases h : Own n r
  · have : ¬ Own m r := by
      intro h'
      apply hne
      obtain ⟨a, b, c⟩ := m
      obtain ⟨a', b', c'⟩ := n
      simp only [Own] at h h'
      simp_all
    simp [h, this]
  · simp [h]

theorem own_of_foreign {n m : NftNames} (hne : m ≠ n) {k k' : Kernel} (h : foreignRules m k' = foreignRules m k) : ownRules n k' = ownRules n k := by
  rw [ownRules_foreign hne, ownRules_foreign hne, h]

theorem elsewhere_step {n m : NftNames} (hne : m ≠ n) {conf : Config} (hm : ChainOf conf m) (s : FwdState) (op : FwdOp) (hf : OpFair n s op) :
    ownRules n (fwdStep conf s op).2.kernel = ownRules n s.kernel := by
  have := C23_foreign_rules_untouched conf m hm s op (fun l => l.filter (fun r => Own n r) = ownRules n s.kernel)
    (ownRules_foreign hne _).symm (by
      cases op with
      | foreign k => show (foreignRules m k).filter _ = _; rw [← ownRules_foreign hne]; exact hf.own
      | maintain now env =>
        refine ⟨fun k hk => ?_, fun k hk => ?_⟩
        · dsimp only at hk ⊢; rw [← ownRules_foreign hne] at hk ⊢; rw [(hf.1 k).own]; exact hk
        · dsimp only at hk ⊢; rw [← ownRules_foreign hne] at hk ⊢; rw [(hf.2 k).own]; exact hk
      | request => trivial
      | terminate => trivial
      | reorder => trivial)
  rw [← ownRules_foreign hne] at this
  exact this

/-- **C100** (another chain). What a run has left behind stays for ever if no living run and no later configuration names the chain: no rule of that chain is
removed, whatever else is started. -/
theorem C100_renamed (n : NftNames) (evs : List HostEvent) (h : FwHost) (hf : HostFair n h evs)
    (hl : ∀ p ∈ h.procs, p.phase.alive = true → ∃ m, ChainOf p.conf m ∧ m ≠ n) (hs : ∀ conf ok, HostEvent.start conf ok ∈ evs → ¬ ChainOf conf n) :
    ownRules n (hostRun h evs).kernel = ownRules n h.kernel := by
  induction evs generalizing h with
  | nil => rfl
  | cons e rest ih =>
    have key : ownRules n (hostStep h e).2.kernel = ownRules n h.kernel ∧
        ∀ p ∈ (hostStep h e).2.procs, p.phase.alive = true → ∃ m, ChainOf p.conf m ∧ m ≠ n := by
      cases e with
      | start conf ok =>
        have hc := hs conf ok (by simp)
        cases hg : NftNames.get conf with
        | ok m =>
          have hm := names_get_iff.1 hg
          have hne : m ≠ n := fun hx => hc (hx ▸ hm)
          have hfor : foreignRules m (NftFirewall.new conf h.kernel ok).2 = foreignRules m h.kernel := by
            have := fullRebuild_foreign hm { leases := [], shutdown := false } h.kernel ok
            unfold NftFirewall.new
            dsimp only
            generalize fullRebuild conf { leases := [], shutdown := false } h.kernel ok = x at this ⊢
            obtain ⟨r, k'⟩ := x
            cases r <;> exact this
          rcases start_cases hm h.kernel ok with ⟨s, h1, h2, h3, h4⟩ | ⟨h1, h2⟩
          · simp only [hostStep, h1]
            have hk : s.kernel = (NftFirewall.new conf h.kernel ok).2 := by
              unfold fwdStart at h1
              split at h1
              · rename_i heq
                injection h1 with h1
                rw [← h1, heq]
              · cases h1
            refine ⟨by rw [hk]; exact own_of_foreign hne hfor, ?_⟩
            intro p hp hal
            rcases List.mem_append.1 hp with hp | hp
            · exact hl p hp hal
            · simp at hp; subst hp; exact ⟨m, hm, hne⟩
          · simp only [hostStep, h1]
            exact ⟨own_of_foreign hne hfor, hl⟩
        | err =>
          have : fullRebuild conf { leases := [], shutdown := false } h.kernel ok = (.err, h.kernel) := by simp [fullRebuild, rebuildCmds, hg]
          simp only [hostStep, fwdStart, NftFirewall.new, this]
          exact ⟨trivial, hl⟩
        | panic => exact absurd hg (names_get_not_panic _)
      | act i op =>
        cases hp : h.procs[i]? with
        | none => simp only [hostStep, hp]; exact ⟨trivial, hl⟩
        | some p =>
          have hfair := hf.1 p hp
          simp only [hostStep, hp]
          by_cases hal : p.phase.alive = true
          · obtain ⟨m, hm, hne⟩ := hl p (List.mem_of_getElem? hp) hal
            refine ⟨elsewhere_step hne hm _ op hfair, ?_⟩
            intro q hq hqa
            rcases List.mem_or_eq_of_mem_set hq with hq | rfl
            · exact hl q hq hqa
            · exact ⟨m, hm, hne⟩
          · obtain ⟨h1, h2⟩ := ended_step (conf := p.conf) (n := n) (s := p.state h.kernel) (by simpa [FwInstance.state] using hal) op hfair
            refine ⟨h2.own, ?_⟩
            intro q hq hqa
            rcases List.mem_or_eq_of_mem_set hq with hq | rfl
            · exact hl q hq hqa
            · simp only [h1] at hqa
              exact absurd hqa hal
      | kill i =>
        cases hp : h.procs[i]? with
        | none => simp only [hostStep, hp]; exact ⟨trivial, hl⟩
        | some p =>
          simp only [hostStep, hp]
          refine ⟨trivial, ?_⟩
          intro q hq hqa
          rcases List.mem_or_eq_of_mem_set hq with hq | rfl
          · exact hl q hq hqa
          · cases hqa
      | others k =>
        have : OwnUnchanged n h.kernel k := hf.1
        exact ⟨this.own, hl⟩
    rw [hostRun, ih _ hf.2 key.2 (fun conf ok hm => hs conf ok (List.mem_cons_of_mem _ hm)), key.1]

/-! ## C101 -/

/-- **C101 (partial)**. However many letmeinfwds run at a time: what the chain accepts goes to the control port of some run or is allowed by the answers of some run,
where a run that is gone counts until the chain is emptied the next time. Missing: that a second letmeinfwd closes nothing, which is false (`C101_negation`,
`C100_start`). -/
theorem C101_nothing_more_partial (n : NftNames) (k : Kernel) (evs : List HostEvent) (hf : HostFair n ⟨[], k⟩ evs) (hn : SameChain n evs)
    (hs : (hostRun ⟨[], k⟩ evs).procs ≠ []) (pkt : Packet) (ha : chainAccepts n (hostRun ⟨[], k⟩ evs).kernel pkt = true) :
    ∃ (i : Nat) (p : FwInstance) (g : Grants), (hostRun ⟨[], k⟩ evs).procs[i]? = some p ∧ (tables ⟨[], k⟩ [] evs)[i]? = some (some g) ∧
      (toControlPort p.conf pkt ∨ ∃ a q e, g a q = some e ∧ covers a q pkt) := by
  obtain ⟨cls, h1 | h1⟩ := hostRun_inv evs (h := ⟨[], k⟩) (ts := []) (cls := []) (.inl ⟨rfl, rfl, rfl⟩) hf hn
  · exact absurd h1.1 hs
  · exact h1.accepts ha

/-- **C101** (not noticed). A running letmeinfwd answers a request for what it has granted before without touching the ruleset: if another one has closed it in
between, it stays closed, and the client is told otherwise. -/
theorem C101_not_noticed (n : NftNames) (k : Kernel) (evs : List HostEvent) (hf : HostFair n ⟨[], k⟩ evs) (hn : SameChain n evs) (i : Nat) (p : FwInstance)
    (g : Grants) (hp : (hostRun ⟨[], k⟩ evs).procs[i]? = some p) (hr : p.phase = .running) (ht : (tables ⟨[], k⟩ [] evs)[i]? = some (some g))
    (rx : FwRecvOut) (now : Nat) (ok : Bool) (a : IpAddr) (q : LeasePort) (m : Option FwMessage) (h' : FwHost)
    (hs : hostStep (hostRun ⟨[], k⟩ evs) (.act i (.request rx now ok)) = (.reply m, h')) (hg : granted (.request rx now ok) m = some (a, q, now))
    (e : Nat) (hold : g a q = some e) : h'.kernel = (hostRun ⟨[], k⟩ evs).kernel := by
  obtain ⟨cls, h1 | h1⟩ := hostRun_inv evs (h := ⟨[], k⟩) (ts := []) (cls := []) (.inl ⟨rfl, rfl, rfl⟩) hf hn
  · rw [h1.1] at hp; simp at hp
  · have hlp := (List.getElem?_eq_some_iff.1 hp).1
    obtain ⟨cl, hcl⟩ : ∃ cl, cls[i]? = some cl := ⟨_, List.getElem?_eq_getElem (by rw [h1.lenC]; exact hlp)⟩
    obtain ⟨h2, h3⟩ := h1.runs i p cl _ hp hcl ht
    rw [hr] at h3
    obtain ⟨g', hgg, hl, hd, htab, _⟩ := h3
    injection hgg with hgg
    subst hgg
    generalize hostRun ⟨[], k⟩ evs = h at *
    simp only [hostStep, hp] at hs
    injection hs with hs1 hs2
    injection hs1 with hs1
    subst hs2
    simp only [FwInstance.state, hr, fwdStep] at hs1 ⊢
    rcases request_cases h2 hl h1.ok hd rx now ok with ⟨r, reply, he, hnp, hg', _⟩ | ⟨a', q', fw', k', _, he, hg', _, _, _, _, _, hsame, _, _⟩
    · rw [he]
      cases r <;> rfl
    · rw [he] at hs1 ⊢
      simp only at hs1 ⊢
      rw [← hs1, hg'] at hg
      injection hg with hg
      injection hg with e1 e2
      injection e2 with e2 e3
      subst e1 e2
      obtain ⟨l, hl', _⟩ := (htab _ _ _).1 hold
      exact hsame ⟨l, hl'⟩

/-! ### Concrete histories -/

/-- letmeinfwd is started, opens a port and is killed. -/
def hostHistory1 : List HostEvent :=
  [.start fwConf true, .act 0 (.maintain 0 calmEnv), .act 0 (.request (.msg (FwMessage.newOpen examplePeer .Tcp 22)) (1 * second) true), .kill 0]

/-- A configuration with another control port. -/
def movedConf : Config := { fwConf with port := { port := 777, tcp := true, udp := false } }

/-- Another program uses up a handle, a start fails, letmeinfwd is started with another control port, and then it opens another port. -/
def hostHistory2 : List HostEvent :=
  [.others { (hostRun ⟨[], fwKernel⟩ hostHistory1).kernel with gen := (hostRun ⟨[], fwKernel⟩ hostHistory1).kernel.gen + 1 }, .start fwConf false,
   .start movedConf true, .act 1 (.request (.msg (FwMessage.newOpen (.v4 ⟨[192, 0, 2, 8], rfl⟩) .TcpUdp 443)) (2 * second) true)]

theorem hostRun_append (h : FwHost) (evs evs' : List HostEvent) : hostRun h (evs ++ evs') = hostRun (hostRun h evs) evs' := by
  induction evs generalizing h with
  | nil => rfl
  | cons e rest ih => exact ih _

theorem hostFair_append {n : NftNames} {h : FwHost} {evs evs' : List HostEvent} (h1 : HostFair n h evs) (h2 : HostFair n (hostRun h evs) evs') :
    HostFair n h (evs ++ evs') := by
  induction evs generalizing h with
  | nil => exact h2
  | cons e rest ih => exact ⟨h1.1, ih h1.2 h2⟩

theorem hostHistory1_fair : HostFair fwNames ⟨[], fwKernel⟩ hostHistory1 :=
  ⟨trivial, fun _ _ => ⟨fun _ => ⟨rfl, Nat.le_refl _⟩, fun _ => ⟨rfl, Nat.le_refl _⟩⟩, fun _ _ => trivial, trivial, trivial⟩

theorem hostHistory_fair : HostFair fwNames ⟨[], fwKernel⟩ (hostHistory1 ++ hostHistory2) :=
  hostFair_append hostHistory1_fair ⟨⟨rfl, Nat.le_succ _⟩, trivial, trivial, fun _ _ => trivial, trivial⟩

theorem hostHistory_chain : SameChain fwNames (hostHistory1 ++ hostHistory2) := by
  intro conf ok h
  have hc : ChainOf fwConf fwNames := ⟨by decide, rfl, rfl, by decide, by decide⟩
  have hm : ChainOf movedConf fwNames := ⟨by decide, rfl, rfl, by decide, by decide⟩
  simp only [hostHistory1, hostHistory2, List.cons_append, List.nil_append, List.mem_cons, HostEvent.start.injEq, List.not_mem_nil, or_false,
    reduceCtorEq, false_or] at h
  rcases h with ⟨rfl, _⟩ | ⟨rfl, _⟩ | ⟨rfl, _⟩
  · exact hc
  · exact hc
  · exact hm

/-- Has every run ended? -/
def allEnded (h : FwHost) : Bool := h.procs.all (fun p => !p.phase.alive)

theorem allEnded_spec {h : FwHost} (ha : allEnded h = true) : ∀ p ∈ h.procs, p.phase.alive = false := by
  intro p hp
  have := List.all_eq_true.1 ha p hp
  simpa using this

/-- C100: the history is fair and one at a time, the second run is running; what the first one opened is closed, and so is its control port. -/
example : OneAtATime ⟨[], fwKernel⟩ (hostHistory1 ++ hostHistory2) := by
  refine ⟨fun _ _ _ p hp => (by simp at hp), fun _ _ h => (by cases h), fun _ _ h => (by cases h), fun _ _ h => (by cases h), fun _ _ h => (by cases h),
    fun _ _ _ => allEnded_spec (by decide +kernel), fun _ _ _ => allEnded_spec (by decide +kernel), fun _ _ h => (by cases h), trivial⟩
example : (hostRun ⟨[], fwKernel⟩ (hostHistory1 ++ hostHistory2)).procs.map (·.phase) = [.crashed, .running] ∧
    chainAccepts fwNames (hostRun ⟨[], fwKernel⟩ hostHistory1).kernel ⟨examplePeer, .tcp, 22⟩ = true ∧
    chainAccepts fwNames (hostRun ⟨[], fwKernel⟩ hostHistory1).kernel ⟨examplePeer, .tcp, 5800⟩ = true ∧
    chainAccepts fwNames (hostRun ⟨[], fwKernel⟩ (hostHistory1 ++ hostHistory2)).kernel ⟨examplePeer, .tcp, 22⟩ = false ∧
    chainAccepts fwNames (hostRun ⟨[], fwKernel⟩ (hostHistory1 ++ hostHistory2)).kernel ⟨examplePeer, .tcp, 5800⟩ = false ∧
    chainAccepts fwNames (hostRun ⟨[], fwKernel⟩ (hostHistory1 ++ hostHistory2)).kernel ⟨examplePeer, .tcp, 777⟩ = true ∧
    chainAccepts fwNames (hostRun ⟨[], fwKernel⟩ (hostHistory1 ++ hostHistory2)).kernel ⟨.v4 ⟨[192, 0, 2, 8], rfl⟩, .udp, 443⟩ = true ∧
    latestGrants ⟨[], fwKernel⟩ Grants.none (hostHistory1 ++ hostHistory2) (.v4 ⟨[192, 0, 2, 8], rfl⟩) (.TcpUdp 443) = some (602 * second) ∧
    latestGrants ⟨[], fwKernel⟩ Grants.none (hostHistory1 ++ hostHistory2) examplePeer (.Tcp 22) = none := by
  decide +kernel

/-- C100 (another chain): the chain is renamed before the second start, and the port opened before stays open. -/
def renamedConf : Config := { fwConf with nftChainInput := "NEW-INPUT".toList }
example : (hostStep (hostRun ⟨[], fwKernel⟩ hostHistory1) (.start renamedConf true)).2.procs.map (·.phase) = [.crashed, .running] ∧
    chainAccepts fwNames (hostStep (hostRun ⟨[], fwKernel⟩ hostHistory1) (.start renamedConf true)).2.kernel ⟨examplePeer, .tcp, 22⟩ = true := by
  decide +kernel
example : ¬ ChainOf renamedConf fwNames := by
  intro h
  have := h.chain
  revert this
  decide
example : HostFair fwNames (hostRun ⟨[], fwKernel⟩ hostHistory1) [.start renamedConf true] := ⟨trivial, trivial⟩
example : ∀ p ∈ (hostRun ⟨[], fwKernel⟩ hostHistory1).procs, p.phase.alive = true → ∃ m, ChainOf p.conf m ∧ m ≠ fwNames := by
  intro p hp ha
  rw [allEnded_spec (by decide +kernel) p hp] at ha
  cases ha

/-- Two at a time: the first one opens a port, a second one is started and opens the same port, the first one renews. -/
def hostHistory3 : List HostEvent :=
  [.start fwConf true, .act 0 (.request (.msg (FwMessage.newOpen examplePeer .Tcp 22)) (1 * second) true), .start movedConf true,
   .act 0 (.request (.msg (FwMessage.newOpen examplePeer .Tcp 22)) (2 * second) true)]

theorem hostHistory3_fair : HostFair fwNames ⟨[], fwKernel⟩ hostHistory3 :=
  ⟨trivial, fun _ _ => trivial, trivial, fun _ _ => trivial, trivial⟩

theorem hostHistory3_chain : SameChain fwNames hostHistory3 := by
  intro conf ok h
  apply hostHistory_chain conf true
  simp only [hostHistory3, List.mem_cons, HostEvent.start.injEq, List.not_mem_nil, or_false, reduceCtorEq, false_or] at h
  rcases h with ⟨rfl, _⟩ | ⟨rfl, _⟩ <;> simp [hostHistory1, hostHistory2]

/-- Was the event answered with Ack? -/
def HostOut.acked : HostOut → Bool
  | .reply (some m) => m.operation = .Ack
  | _ => false

/-- C101: both run; the port is in the table of the first one, and the renewal is acknowledged, but the chain does not accept the packet. -/
example : (hostRun ⟨[], fwKernel⟩ hostHistory3).procs.map (·.phase) = [.running, .running] ∧
    HostOut.acked (hostStep (hostRun ⟨[], fwKernel⟩ (hostHistory3.take 3))
      (.act 0 (.request (.msg (FwMessage.newOpen examplePeer .Tcp 22)) (2 * second) true))).1 = true ∧
    ((tables ⟨[], fwKernel⟩ [] hostHistory3)[0]?.bind (·.bind (fun g => g examplePeer (.Tcp 22)))) = some (602 * second) ∧
    chainAccepts fwNames (hostRun ⟨[], fwKernel⟩ hostHistory3).kernel ⟨examplePeer, .tcp, 22⟩ = false ∧
    chainAccepts fwNames (hostRun ⟨[], fwKernel⟩ hostHistory3).kernel ⟨examplePeer, .tcp, 777⟩ = true := by
  decide +kernel

/-- C101 (`nothing_more_partial`): both go on granting, and a packet is accepted because of the second run's answer. -/
example : ∃ evs : List HostEvent, HostFair fwNames ⟨[], fwKernel⟩ (hostHistory3 ++ evs) ∧
    (hostRun ⟨[], fwKernel⟩ (hostHistory3 ++ evs)).procs.map (·.phase) = [.running, .running] ∧
    chainAccepts fwNames (hostRun ⟨[], fwKernel⟩ (hostHistory3 ++ evs)).kernel ⟨examplePeer, .tcp, 22⟩ = true :=
  ⟨[.act 0 (.request (.msg (FwMessage.newOpen (.v4 ⟨[192, 0, 2, 8], rfl⟩) .Tcp 22)) (100 * second) true),
    .act 1 (.request (.msg (FwMessage.newOpen examplePeer .Tcp 22)) (550 * second) true)],
    hostFair_append hostHistory3_fair ⟨fun _ _ => trivial, fun _ _ => trivial, trivial⟩, by decide +kernel, by decide +kernel⟩

/-- **C101 is false**. A second letmeinfwd, started with success, closes a port that the first one has opened and that is not due. -/
theorem C101_negation : ¬ ∀ (n : NftNames) (k : Kernel) (evs : List HostEvent) (conf : Config) (ok : Bool), HostFair n ⟨[], k⟩ evs →
    SameChain n (evs ++ [.start conf ok]) → (∀ p ∈ (hostRun ⟨[], k⟩ evs).procs, p.phase = .running) → ∀ pkt,
    chainAccepts n (hostRun ⟨[], k⟩ evs).kernel pkt = true → chainAccepts n (hostRun ⟨[], k⟩ (evs ++ [.start conf ok])).kernel pkt = true := by
  intro hall
  have := hall fwNames fwKernel (hostHistory3.take 2) movedConf true ⟨trivial, fun _ _ => trivial, trivial⟩
    (fun conf ok h => hostHistory3_chain conf ok (by
      simp only [hostHistory3, List.take_succ_cons, List.take_zero, List.cons_append, List.nil_append, List.mem_cons, List.not_mem_nil, or_false] at h ⊢
      rcases h with h | h | h
      · exact .inl h
      · exact .inr (.inl h)
      · exact .inr (.inr (.inl h))))
    (by
      intro p hp
      have h : (hostRun ⟨[], fwKernel⟩ (hostHistory3.take 2)).procs.map (·.phase) = [.running] := by decide +kernel
      have := List.mem_map_of_mem (f := (·.phase)) hp
      rw [h] at this
      simpa using this)
    ⟨examplePeer, .tcp, 22⟩ (by decide +kernel)
  revert this
  decide +kernel

end Letmein.Props
