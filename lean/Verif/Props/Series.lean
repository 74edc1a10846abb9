import Verif.Props.Punctual
import Verif.Props.KeptOpen
import Verif.Props.Tight

/-!
# Property C136: running the client at intervals keeps the port open without a gap
-/

namespace Letmein.Spec

open Letmein

/-- One run of the client: when it starts, what happens until it has ended, the state then, what happens to letmeinfwd until the next start, when that is. -/
structure Round where
  start : Nat
  evs : List (Nat × TEv)
  fin : Timed
  idle : List FwdOp
  stop : Nat

/-- What happens to letmeinfwd in the round. -/
def Round.ops (R : Round) : List FwdOp := wholeOps (untimed R.evs) ++ R.idle

/-- The client is run again and again with the same user, resource and address: each time everybody is prompt, the knock gets to its end, and the next one is started when it has, no later than `p` after
the start of this one. `before`: what has happened to letmeinfwd so far. -/
def Series (mac : MacFn) (sconf fconf : Config) (peer : IpAddr) (u : UserId) (r : ResourceId) (key : Key) (tc d p : Nat) (sI : FwdState) : List FwdOp → List Round → Prop
  | _, [] => True
  | before, R :: rest =>
    PromptRun fconf tc sconf.controlTimeout d (Timed.init (Whole.init mac sconf peer u r key (fwdRun fconf sI before).2) R.start) R.evs R.fin ∧
    ¬ Timed.canGo fconf R.fin ∧ R.fin.now ≤ R.stop ∧ R.stop ≤ R.start + p ∧ (∀ op ∈ R.idle, ∀ t, FwdOp.time op = some t → R.fin.now ≤ t ∧ t ≤ R.stop) ∧
    (∀ R' rest', rest = R' :: rest' → R'.start = R.stop) ∧
    Series mac sconf fconf peer u r key tc d p sI (before ++ R.ops) rest

end Letmein.Spec

namespace Letmein.Props

open Letmein Prog Spec

/-! ### Keeping up -/

/-- First all times are from `L` on and before the end of the lease time after `L`; what follows is kept up from any time from `L` on. -/
theorem keptUp_append {timeout : Nat} {addr : IpAddr} {t : PortType} {port : UInt16} {ops rest : List FwdOp} {L last : Nat} (hl : L ≤ last)
    (h : ∀ op ∈ ops, ∀ at', FwdOp.time op = some at' → L ≤ at' ∧ at' < L + timeout) (hr : ∀ last', L ≤ last' → KeptUp timeout addr t port last' rest) :
    KeptUp timeout addr t port last (ops ++ rest) := by
  induction ops generalizing last with
  | nil => exact hr last hl
  | cons op ops ih =>
    have hrest : ∀ op ∈ ops, ∀ at', FwdOp.time op = some at' → L ≤ at' ∧ at' < L + timeout := fun o ho => h o (by simp [ho])
    cases op with
    | request rx now ok =>
      have := (h _ List.mem_cons_self now rfl).1
      show KeptUp timeout addr t port (if _ then now else last) _
      split
      · exact ih this hrest
      · exact ih hl hrest
    | maintain now env =>
      have := (h _ List.mem_cons_self now rfl).2
      exact ⟨by omega, ih hl hrest⟩
    | _ => exact ih hl hrest

/-! ### The request of a round -/

theorem timed_clock {fconf : Config} {tc ts : Duration} {T T' : Timed} {t : Nat} {e : TEv} (hs : TimedStep fconf tc ts T t e T') :
    T.now ≤ t ∧ T'.now = t ∧ ∀ op ∈ wholeOps (untimed [(t, e)]), ∀ at', FwdOp.time op = some at' → at' = t := by
  cases hs with
  | client hnow _ _ => exact ⟨hnow, rfl, by simp [untimed, wholeOps, WEv.fwdOp]⟩
  | session hnow _ _ => exact ⟨hnow, rfl, by simp [untimed, wholeOps, WEv.fwdOp]⟩
  | serve hnow _ =>
    refine ⟨hnow, rfl, fun op ho at' h => ?_⟩
    simp [untimed, wholeOps, WEv.fwdOp] at ho
    subst ho
    injection h with h
    exact h.symm
  | other hnow hcl _ =>
    refine ⟨hnow, rfl, fun op ho at' h => ?_⟩
    simp [untimed, wholeOps, WEv.fwdOp] at ho
    subst ho
    exact hcl at' (by cases op <;> first | exact h | cases h)
  | clientTimeout hnow _ _ => exact ⟨hnow, rfl, by simp [untimed, wholeOps]⟩
  | sessionTimeout hnow _ _ => exact ⟨hnow, rfl, by simp [untimed, wholeOps]⟩

theorem untimed_split (a b : List (Nat × TEv)) : wholeOps (untimed (a ++ b)) = wholeOps (untimed a) ++ wholeOps (untimed b) := by
  unfold untimed
  rw [List.filterMap_append, wholeOps_append]

/-- Times in a prompt run. -/
theorem prompt_times {fconf : Config} {tc ts d : Duration} {T0 T : Timed} {evs : List (Nat × TEv)} (h : PromptRun fconf tc ts d T0 evs T) :
    T0.now ≤ T.now ∧ (∀ op ∈ wholeOps (untimed evs), ∀ at', FwdOp.time op = some at' → T0.now ≤ at' ∧ at' ≤ T.now) ∧ Chronological (wholeOps (untimed evs)) := by
  induction h with
  | refl => exact ⟨Nat.le_refl _, by simp [untimed, wholeOps], by simp [untimed, wholeOps, Chronological]⟩
  | @step T1 T2 evs t e _ hs _ ih =>
    obtain ⟨i1, i2, i3⟩ := ih
    obtain ⟨c1, c2, c3⟩ := timed_clock hs
    refine ⟨by omega, fun op ho at' h => ?_, ?_⟩
    · rw [untimed_split] at ho
      rcases List.mem_append.1 ho with ho | ho
      · have := i2 op ho at' h; omega
      · have := c3 op ho at' h; omega
    · unfold Chronological at i3 ⊢
      rw [untimed_split, List.filterMap_append, List.pairwise_append]
      refine ⟨i3, ?_, fun x hx y hy => ?_⟩
      · generalize hl : wholeOps (untimed [(t, e)]) = l at c3
        have : l.length ≤ 1 := by
          rw [← hl]
          cases e with
          | step e => cases e <;> exact Nat.le_of_ble_eq_true rfl
          | _ => simp [untimed, wholeOps]
        match l, this with
        | [], _ => simp
        | [o], _ => cases h : FwdOp.time o <;> simp [h]
      · obtain ⟨o, ho, hx⟩ := List.mem_filterMap.1 hx
        obtain ⟨o', ho', hy⟩ := List.mem_filterMap.1 hy
        have h1 := i2 o ho x hx
        have h2 := c3 o' ho' y hy
        omega

/-- The run just after its fourteenth step. -/
theorem prompt_prefix {fconf : Config} {tc ts d : Duration} {T0 T : Timed} {evs : List (Nat × TEv)} (h : PromptRun fconf tc ts d T0 evs T) (h14 : 14 ≤ ownSteps (untimed evs)) :
    ∃ evs1 evs2 T1, evs = evs1 ++ evs2 ∧ PromptRun fconf tc ts d T0 evs1 T1 ∧ ownSteps (untimed evs1) = 14 ∧ T1.now = T1.last := by
  induction h with
  | refl => simp [untimed, ownSteps] at h14
  | @step T1 T2 evs t e hr hs hp ih =>
    by_cases hlt : 14 ≤ ownSteps (untimed evs)
    · obtain ⟨e1, e2, T', rfl, h1, h2, h3⟩ := ih hlt
      exact ⟨e1, e2 ++ [(t, e)], T', by simp, h1, h2, h3⟩
    · rw [untimed_append] at h14
      cases hs with
      | client h1 h2 h3 =>
        simp only [ownSteps_append, WEv.own, if_true] at h14
        exact ⟨_, [], _, (by simp), .step hr (.client h1 h2 h3) hp, by rw [untimed_append, ownSteps_append]; simp only [WEv.own, if_true]; omega, rfl⟩
      | session h1 h2 h3 =>
        simp only [ownSteps_append, WEv.own, if_true] at h14
        exact ⟨_, [], _, (by simp), .step hr (.session h1 h2 h3) hp, by rw [untimed_append, ownSteps_append]; simp only [WEv.own, if_true]; omega, rfl⟩
      | serve h1 h2 =>
        simp only [ownSteps_append, WEv.own, if_true] at h14
        exact ⟨_, [], _, (by simp), .step hr (.serve h1 h2) hp, by rw [untimed_append, ownSteps_append]; simp only [WEv.own, if_true]; omega, rfl⟩
      | other h1 h2 h3 =>
        simp only [ownSteps_append, WEv.own] at h14
        simp at h14
        omega
      | clientTimeout h1 h2 h3 => simp only [List.append_nil] at h14; omega
      | sessionTimeout h1 h2 h3 => simp only [List.append_nil] at h14; omega

theorem asksFor_newOpen (peer : IpAddr) (pt : PortType) (port : UInt16) : asksFor peer pt port (.msg (FwMessage.newOpen peer pt port)) = true := by
  have hgp : (FwMessage.newOpen peer pt port).getPort = some (pt, port) := rfl
  simp only [asksFor, newOpen_getAddr, hgp, and_self, decide_true]

/-- What a round does: its client succeeds, and letmeinfwd acknowledges its request no later than fourteen delays after the start. -/
theorem round_request {mac : MacFn} {sconf fconf : Config} {peer : IpAddr} {u : UserId} {r : ResourceId} {key : Key} {res : Resource} {pt : PortType}
    (h0 : SP0 mac peer u r key res pt (session mac sconf peer)) (hk : sconf.key u = some key) (hg : Granted sconf u r res) (hp : res.tcp = true ∨ res.udp = true)
    {n : NftNames} (hn : ChainOf fconf n)
    (hc : CanOpen fconf n peer res.port) {k0 : Kernel} {startOk : Bool} {sI : FwdState} (hstart : fwdStart fconf k0 startOk = some sI)
    {before : List FwdOp} (hb : (fwdRun fconf sI before).2.phase ≠ .stopped) {tc d t0 : Nat} (htc : 8 * d < tc) (hts : 4 * d < sconf.controlTimeout)
    {evs : List (Nat × TEv)} {T : Timed}
    (hrun : PromptRun fconf tc sconf.controlTimeout d (Timed.init (Whole.init mac sconf peer u r key (fwdRun fconf sI before).2) t0) evs T)
    (hend : ¬ Timed.canGo fconf T)
    (hfair : Fair fconf n sI (before ++ wholeOps (untimed evs))) (hterm : ∀ ok, FwdOp.terminate ok ∉ wholeOps (untimed evs)) :
    T.W.client = .ret (.ok ()) ∧ ∃ a b s, wholeOps (untimed evs) = a ++ .request (.msg (FwMessage.newOpen peer pt res.port)) s true :: b ∧
      (fwdStep fconf (fwdRun fconf sI (before ++ a)).2 (.request (.msg (FwMessage.newOpen peer pt res.port)) s true)).1 = some FwMessage.newAck ∧
      t0 ≤ s ∧ s ≤ t0 + 14 * d ∧ s ≤ T.now ∧
      (∀ op ∈ a, ∀ t, FwdOp.time op = some t → t0 ≤ t ∧ t ≤ t0 + 14 * d) ∧ (∀ op ∈ b, ∀ t, FwdOp.time op = some t → s ≤ t ∧ t ≤ T.now) := by
  obtain ⟨_, _, _, hfin⟩ := C132_prompt_knock_succeeds mac sconf fconf peer u r key res hk hg hp n hn hc k0 startOk sI hstart before hb tc d t0 htc hts evs T hrun hfair hterm
  rcases hfin with hfin | ⟨h18, hcl, _, _⟩
  · exact absurd hfin hend
  refine ⟨hcl, ?_⟩
  obtain ⟨evs1, evs2, T1, rfl, hr1, h14, hnow⟩ := prompt_prefix hrun (by omega)
  obtain ⟨_, ht, hch⟩ := prompt_times hrun
  have hsplit := untimed_split evs1 evs2
  rw [hsplit] at hfair hterm ht hch
  have hf1 : Fair fconf n sI (before ++ wholeOps (untimed evs1)) := by
    rw [← List.append_assoc] at hfair
    exact (fair_append hfair).1
  have hterm1 : ∀ ok, FwdOp.terminate ok ∉ wholeOps (untimed evs1) := fun ok hm => hterm ok (List.mem_append_left _ hm)
  have hP := punctual h0 hn hc hstart hb htc hts hr1 hf1 hterm1
  obtain ⟨_, hreq⟩ := whole_inv h0 hn hc hstart hb hP.run hf1 hterm1
  obtain ⟨a, b, s, hops, hack⟩ := hreq (by omega)
  have htot := hP.total
  rw [h14, ← hnow] at htot
  have htm := hP.times
  rw [hops] at htm
  rw [hsplit, hops, List.append_assoc, List.cons_append]
  rw [hops, List.append_assoc, List.cons_append] at ht hch
  have happ : (fwdRun fconf sI (before ++ a)).2 = (fwdRun fconf (fwdRun fconf sI before).2 a).2 := by rw [fwdRun_append]
  rw [← happ] at hack
  have hs := htm _ (List.mem_append_right _ List.mem_cons_self) s rfl
  have hs' := ht _ (List.mem_append_right _ List.mem_cons_self) s rfl
  refine ⟨a, _, s, rfl, hack, hs.1, Nat.le_trans hs.2 htot, hs'.2, fun op ho t h => ?_, fun op ho t h => ⟨?_, (ht op (by simp at ho ⊢; grind) t h).2⟩⟩
  · have := htm op (by simp [ho]) t h
    exact ⟨this.1, Nat.le_trans this.2 htot⟩
  · unfold Chronological at hch
    rw [List.filterMap_append, List.pairwise_append] at hch
    have h2 := hch.2.1
    have hcons : ∀ l, (FwdOp.request (.msg (FwMessage.newOpen peer pt res.port)) s true :: l).filterMap FwdOp.time = s :: l.filterMap FwdOp.time := fun l => rfl
    rw [hcons, List.pairwise_cons] at h2
    exact h2.1 t (List.mem_filterMap.2 ⟨op, ho, h⟩)

theorem openFor_of_covers {n : NftNames} {k : Kernel} {peer : IpAddr} {res : Resource} {pt : PortType} (ht : opensTcp pt = res.tcp) (hu : opensUdp pt = res.udp)
    (h : ∀ pkt, covers peer (selection pt res.port) pkt → chainAccepts n k pkt = true) : OpenFor n k peer res := by
  refine fun pkt hsrc hport hproto => h pkt ⟨hsrc.symm, ?_⟩
  cases pt <;> simp only [opensTcp, opensUdp] at ht hu <;> simp only [selection, portCovers]
  · exact ⟨by rcases hproto with h | h <;> simp_all, hport⟩
  · exact ⟨by rcases hproto with h | h <;> simp_all, hport⟩
  · exact hport

/-- A series that starts at most `p` after the latest request keeps up, and all its clients succeed. -/
theorem series_keeps {mac : MacFn} {sconf fconf : Config} {peer : IpAddr} {u : UserId} {r : ResourceId} {key : Key} {res : Resource} {pt : PortType}
    (h0 : SP0 mac peer u r key res pt (session mac sconf peer)) (hk : sconf.key u = some key) (hg : Granted sconf u r res) (hp : res.tcp = true ∨ res.udp = true)
    {n : NftNames} (hn : ChainOf fconf n)
    (hc : CanOpen fconf n peer res.port) {k0 : Kernel} {startOk : Bool} {sI : FwdState} (hstart : fwdStart fconf k0 startOk = some sI)
    {tc d p : Nat} (htc : 8 * d < tc) (hts : 4 * d < sconf.controlTimeout) (hper : p + 14 * d < fconf.nftTimeout) (rounds : List Round) (before : List FwdOp)
    (hs : Series mac sconf fconf peer u r key tc d p sI before rounds)
    (hfair : Fair fconf n sI (before ++ rounds.flatMap Round.ops)) (hterm : ∀ ok, FwdOp.terminate ok ∉ rounds.flatMap Round.ops)
    (hrun : (fwdRun fconf sI (before ++ rounds.flatMap Round.ops)).2.phase = .running) :
    (∀ R ∈ rounds, R.fin.W.client = .ret (.ok ())) ∧
    ∀ L last, L ≤ last → (∀ R rest, rounds = R :: rest → L ≤ R.start ∧ R.start ≤ L + p) → KeptUp fconf.nftTimeout peer pt res.port last (rounds.flatMap Round.ops) := by
  induction rounds generalizing before with
  | nil => exact ⟨by simp, fun _ _ _ _ => trivial⟩
  | cons R rest ih =>
    obtain ⟨h1, h2, h3, h4, h5, h6, h7⟩ := hs
    rw [List.flatMap_cons, ← List.append_assoc] at hfair hrun
    have hb : (fwdRun fconf sI before).2.phase ≠ .stopped := by
      rw [running_before (running_before hrun)]; simp
    have hterm' : ∀ ok, FwdOp.terminate ok ∉ R.ops ∧ FwdOp.terminate ok ∉ rest.flatMap Round.ops := fun ok => by
      have := hterm ok
      rw [List.flatMap_cons, List.mem_append, not_or] at this
      exact this
    have hf1 : Fair fconf n sI (before ++ wholeOps (untimed R.evs)) := by
      have := (fair_append hfair).1
      unfold Round.ops at this
      rw [← List.append_assoc] at this
      exact (fair_append this).1
    obtain ⟨hcl, a, b, s, hops, _, hs1, hs2, hs3, hta, htb⟩ := round_request h0 hk hg hp hn hc hstart hb htc hts h1 h2 hf1
      (fun ok hm => (hterm' ok).1 (List.mem_append_left _ hm))
    obtain ⟨i1, i2⟩ := ih (before ++ R.ops) h7 hfair (fun ok => (hterm' ok).2) hrun
    refine ⟨fun R' hR => ?_, fun L last hl hst => ?_⟩
    · rcases List.mem_cons.1 hR with rfl | hR
      · exact hcl
      · exact i1 R' hR
    · obtain ⟨hst1, hst2⟩ := hst R rest rfl
      have hre : (R :: rest).flatMap Round.ops = a ++ .request (.msg (FwMessage.newOpen peer pt res.port)) s true :: ((b ++ R.idle) ++ rest.flatMap Round.ops) := by
        rw [List.flatMap_cons, Round.ops, hops]; simp
      rw [hre]
      refine keptUp_append hl (fun op ho t h => ?_) (fun last' _ => ?_)
      · have := hta op ho t h; omega
      · show KeptUp _ _ _ _ (if _ then s else last') _
        rw [if_pos (asksFor_newOpen peer pt res.port)]
        refine keptUp_append (Nat.le_refl s) (fun op ho t h => ?_) (fun last'' hl'' => i2 s last'' hl'' (fun R' rest' he => ?_))
        · rcases List.mem_append.1 ho with ho | ho
          · have := htb op ho t h; omega
          · have := h5 op ho t h; omega
        · have := h6 R' rest' he; omega

end Letmein.Props

namespace Letmein.Props

open Letmein Prog Spec

/-- **C136.** The client is run again and again with the same user, resource and address, each time no later than `p` after the time before, and everybody is prompt (nobody takes longer than `d`
for a step of a knock). If eight delays are shorter than the client's time limit and four than the server's, and `p` and fourteen delays together are shorter than the lease time, every one of the
runs succeeds, and from the end of the first one on the port is open at every moment: between the runs and during the next ones, whatever else happens to letmeinfwd in the meantime. -/
theorem C136_no_gap_between_runs (mac : MacFn) (sconf fconf : Config) (peer : IpAddr) (u : UserId) (r : ResourceId) (key : Key) (res : Resource)
    (hk : sconf.key u = some key) (hg : Granted sconf u r res) (hp : res.tcp = true ∨ res.udp = true)
    (n : NftNames) (hn : ChainOf fconf n) (hc : CanOpen fconf n peer res.port)
    (k0 : Kernel) (startOk : Bool) (sI : FwdState) (hstart : fwdStart fconf k0 startOk = some sI) (before : List FwdOp)
    (tc d p : Nat) (htc : 8 * d < tc) (hts : 4 * d < sconf.controlTimeout) (hper : p + 14 * d < fconf.nftTimeout) (rounds : List Round)
    (hs : Series mac sconf fconf peer u r key tc d p sI before rounds)
    (hfair : Fair fconf n sI (before ++ rounds.flatMap Round.ops)) (hterm : ∀ ok, FwdOp.terminate ok ∉ rounds.flatMap Round.ops)
    (hrun : (fwdRun fconf sI (before ++ rounds.flatMap Round.ops)).2.phase = .running) :
    (∀ R ∈ rounds, R.fin.W.client = .ret (.ok ())) ∧
    ∀ R rest, rounds = R :: rest → ∀ upTo later, R.idle ++ rest.flatMap Round.ops = upTo ++ later →
      OpenFor n (fwdRun fconf sI (before ++ wholeOps (untimed R.evs) ++ upTo)).2.kernel peer res := by
  obtain ⟨pt, hpt⟩ : ∃ pt, res.portType = .ok pt := by
    unfold Resource.portType
    cases h1 : res.tcp <;> cases h2 : res.udp <;> simp_all
  have hu : res.containsUser u = true := by
    unfold Resource.containsUser
    rcases hg.allowed with h | h <;> simp [h]
  have h0 := server_SP0 mac sconf peer u r key res pt hk hg.configured hu hg.notControl hpt
  refine ⟨(series_keeps h0 hk hg hp hn hc hstart htc hts hper rounds before hs hfair hterm hrun).1, ?_⟩
  rintro R rest rfl upTo later hul
  obtain ⟨h1, h2, h3, h4, h5, h6, h7⟩ := hs
  have hterm' : ∀ ok, FwdOp.terminate ok ∉ R.ops ∧ FwdOp.terminate ok ∉ rest.flatMap Round.ops := fun ok => by
    have := hterm ok
    rw [List.flatMap_cons, List.mem_append, not_or] at this
    exact this
  rw [List.flatMap_cons] at hfair hrun
  have hb : (fwdRun fconf sI before).2.phase ≠ .stopped := by
    rw [running_before hrun]; simp
  have hf1 : Fair fconf n sI (before ++ wholeOps (untimed R.evs)) := by
    have := hfair
    unfold Round.ops at this
    rw [List.append_assoc, ← List.append_assoc] at this
    exact (fair_append this).1
  obtain ⟨hcl, a, b, s, hops, hack, hs1, hs2, hs3, hta, htb⟩ := round_request h0 hk hg hp hn hc hstart hb htc hts h1 h2 hf1
    (fun ok hm => (hterm' ok).1 (List.mem_append_left _ hm))
  obtain ⟨_, i2⟩ := series_keeps h0 hk hg hp hn hc hstart htc hts hper rest (before ++ R.ops) h7 (by rw [List.append_assoc]; exact hfair) (fun ok => (hterm' ok).2)
    (by rw [List.append_assoc]; exact hrun)
  have hkept : KeptUp fconf.nftTimeout peer pt res.port s ((b ++ R.idle) ++ rest.flatMap Round.ops) := by
    refine keptUp_append (Nat.le_refl s) (fun op ho t h => ?_) (fun last'' hl'' => i2 s last'' hl'' (fun R' rest' he => ?_))
    · rcases List.mem_append.1 ho with ho | ho
      · have := htb op ho t h; omega
      · have := h5 op ho t h; omega
    · have := h6 R' rest' he; omega
  have hre : before ++ (R.ops ++ rest.flatMap Round.ops) =
      (before ++ a) ++ .request (.msg (FwMessage.newOpen peer pt res.port)) s true :: ((b ++ R.idle) ++ rest.flatMap Round.ops) := by
    rw [Round.ops, hops]; simp
  rw [hre] at hfair hrun
  obtain ⟨_, hopen⟩ := C133_no_gap fconf n hn k0 startOk sI hstart (before ++ a) _ peer pt res.port _ s true (asksFor_newOpen peer pt res.port) hack hfair hrun hkept
  obtain ⟨p1, p2⟩ := portType_spec hpt
  refine openFor_of_covers p1 p2 fun pkt hcv => ?_
  have := hopen (b ++ upTo) later (by rw [List.append_assoc, hul]; simp) pkt hcv
  rw [hops]
  simpa using this

end Letmein.Props

namespace Letmein.Props

open Letmein Prog Spec

/-! ### There are such series -/

theorem series_exists {mac : MacFn} {sconf fconf : Config} {peer : IpAddr} {u : UserId} {r : ResourceId} {key : Key} {res : Resource} {pt : PortType}
    (h0 : SP0 mac peer u r key res pt (session mac sconf peer)) {n : NftNames} (hn : ChainOf fconf n)
    (hc : CanOpen fconf n peer res.port) {k0 : Kernel} {startOk : Bool} {sI : FwdState} (hstart : fwdStart fconf k0 startOk = some sI)
    (tc d p : Nat) (hp : 18 * d ≤ p) (env : NftEnv) (he : env.rebuildOk = true) (he1 : ∀ k, OwnUnchanged n k (env.afterList k)) (he2 : ∀ k, OwnUnchanged n k (env.beforeRebuild k))
    (k : Nat) (before : List FwdOp) (hh : Healthy n (fwdRun fconf sI before).2) (hfair : Fair fconf n sI before) (t0 : Nat) :
    ∃ rounds, rounds.length = k ∧ Series mac sconf fconf peer u r key tc d p sI before rounds ∧ Fair fconf n sI (before ++ rounds.flatMap Round.ops) ∧
      (∀ ok, FwdOp.terminate ok ∉ rounds.flatMap Round.ops) ∧ (fwdRun fconf sI (before ++ rounds.flatMap Round.ops)).2.phase = .running ∧
      (∀ R ∈ rounds, R.stop = R.start + p ∧ R.idle = [.maintain R.stop env]) ∧ ∀ R rest, rounds = R :: rest → R.start = t0 := by
  induction k generalizing before t0 with
  | zero => exact ⟨[], rfl, trivial, by simpa using hfair, by simp, by simpa using hh.run, by simp, by simp⟩
  | succ k ih =>
    have hb : (fwdRun fconf sI before).2.phase ≠ .stopped := by rw [hh.run]; simp
    obtain ⟨evs, T, hr, ho, hw, hcount, hat, _, hnow, _, _, _⟩ := slowest_run h0 hn hc hstart hb hfair tc sconf.controlTimeout d t0 18 (by decide)
    have hown : ∀ e ∈ untimed evs, WEv.own e = true := by
      intro e he
      obtain ⟨x, hx, heq⟩ := List.mem_filterMap.1 he
      obtain ⟨e', h1, h2⟩ := ho x hx
      rw [h1] at heq
      injection heq with heq
      exact heq ▸ h2
    have hend : ¬ Timed.canGo fconf T := by
      rintro ⟨e, W', h1, h2⟩
      have hown' : ∀ e' ∈ untimed evs ++ [e], WEv.own e' = true := by
        intro e' he'
        rcases List.mem_append.1 he' with h | h
        · exact hown e' h
        · rw [List.mem_singleton.1 h]; exact h1
      have := (whole_inv h0 hn hc hstart hb (.step hw h2) (fair_concat hfair (requests_fair (own_ops hown') _))
        (fun ok h => by obtain ⟨m, now, hx⟩ := own_ops hown' _ h; cases hx)).1
      rw [ownSteps_append, hcount, if_pos h1] at this
      exact absurd (wAt_le this) (by decide)
    let R : Round := { start := t0, evs, fin := T, idle := [.maintain (t0 + p) env], stop := t0 + p }
    have hreq := own_ops hown
    have hfR : Fair fconf n sI (before ++ R.ops) := by
      refine fair_concat hfair (fair_concat (requests_fair hreq _) ⟨⟨he1, he2⟩, trivial⟩)
    have hq : ∀ (l : List FwdOp) (s : FwdState), (∀ op ∈ l, ∃ m now, op = .request (.msg m) now true) → Healthy n s → Healthy n (fwdRun fconf s l).2 := by
      intro l
      induction l with
      | nil => exact fun s _ h => h
      | cons op l ihl =>
        intro s hl h
        obtain ⟨m, now, rfl⟩ := hl op (by simp)
        exact ihl _ (fun o ho => hl o (by simp [ho])) (healthy_request hn h _ _ _)
    have hhR : Healthy n (fwdRun fconf sI (before ++ R.ops)).2 := by
      rw [fwdRun_append]
      show Healthy n (fwdRun fconf _ (wholeOps (untimed evs) ++ [.maintain (t0 + p) env])).2
      rw [fwdRun_append]
      exact healthy_maintain hn (hq _ _ hreq hh) _ he
    obtain ⟨rounds, i1, i2, i3, i4, i5, i6, i7⟩ := ih (before ++ R.ops) hhR hfR (t0 + p)
    refine ⟨R :: rounds, by simp [i1], ⟨hr, hend, ?_, Nat.le_refl _, fun op hop t h => ?_, i7, i2⟩, ?_, fun ok hm => ?_, ?_, fun R' hR' => ?_, fun R' rest' h => ?_⟩
    · show T.now ≤ t0 + p
      omega
    · rw [List.mem_singleton.1 hop] at h
      injection h with h
      subst h
      refine ⟨?_, Nat.le_refl _⟩
      show T.now ≤ t0 + p
      omega
    · rw [List.flatMap_cons, ← List.append_assoc]; exact i3
    · rw [List.flatMap_cons] at hm
      rcases List.mem_append.1 hm with hm | hm
      · rcases List.mem_append.1 hm with hm | hm
        · obtain ⟨m, now, hx⟩ := hreq _ hm; cases hx
        · cases List.mem_singleton.1 hm
      · exact i4 ok hm
    · rw [List.flatMap_cons, ← List.append_assoc]; exact i5
    · rcases List.mem_cons.1 hR' with rfl | h
      · exact ⟨rfl, rfl⟩
      · exact i6 R' h
    · injection h with h _
      rw [← h]

/-- **C136** (there are such series). In every healthy state of letmeinfwd, and for every number of runs, there is a series with one run after the other at intervals of exactly `p`, if `p` is at least eighteen
delays, with maintenance between the runs. -/
theorem C136_series_exists (mac : MacFn) (sconf fconf : Config) (peer : IpAddr) (u : UserId) (r : ResourceId) (key : Key) (res : Resource)
    (hk : sconf.key u = some key) (hg : Granted sconf u r res) (hpr : res.tcp = true ∨ res.udp = true)
    (n : NftNames) (hn : ChainOf fconf n) (hc : CanOpen fconf n peer res.port)
    (k0 : Kernel) (startOk : Bool) (sI : FwdState) (hstart : fwdStart fconf k0 startOk = some sI)
    (tc d p : Nat) (hp : 18 * d ≤ p) (env : NftEnv) (he : env.rebuildOk = true) (he1 : ∀ k, OwnUnchanged n k (env.afterList k)) (he2 : ∀ k, OwnUnchanged n k (env.beforeRebuild k))
    (k : Nat) (t0 : Nat) :
    ∃ rounds, rounds.length = k ∧ Series mac sconf fconf peer u r key tc d p sI [] rounds ∧ Fair fconf n sI (rounds.flatMap Round.ops) ∧
      (∀ ok, FwdOp.terminate ok ∉ rounds.flatMap Round.ops) ∧ (fwdRun fconf sI (rounds.flatMap Round.ops)).2.phase = .running ∧
      ∀ R ∈ rounds, R.stop = R.start + p ∧ R.idle = [.maintain R.stop env] := by
  obtain ⟨pt, hpt⟩ : ∃ pt, res.portType = .ok pt := by
    unfold Resource.portType
    cases h1 : res.tcp <;> cases h2 : res.udp <;> simp_all
  have hu : res.containsUser u = true := by
    unfold Resource.containsUser
    rcases hg.allowed with h | h <;> simp [h]
  have h0 := server_SP0 mac sconf peer u r key res pt hk hg.configured hu hg.notControl hpt
  obtain ⟨hph, n', hn', hi⟩ := fwdStart_inv hstart
  have := chainOf_unique hn hn'
  subst this
  have hh : Healthy n sI := ⟨hph, (inv_running hi hph).2.1, (inv_running hi hph).1.supp⟩
  obtain ⟨rounds, i1, i2, i3, i4, i5, i6, _⟩ := series_exists h0 hn hc hstart tc d p hp env he he1 he2 k [] hh trivial t0
  exact ⟨rounds, i1, i2, i3, i4, i5, i6⟩

/-! ### The bound is exact -/

theorem prompt_mono {fconf : Config} {tc ts d d' : Nat} (hd : d ≤ d') {T T' : Timed} {evs : List (Nat × TEv)} (h : PromptRun fconf tc ts d T evs T') :
    PromptRun fconf tc ts d' T evs T' := by
  induction h with
  | refl => exact .refl _
  | step _ hs hp ih => exact .step ih hs (fun hg => Nat.le_trans (hp hg) (Nat.add_le_add_left hd _))

/-- What a run without other operations does to letmeinfwd. -/
theorem own_run_ops {mac : MacFn} {sconf fconf : Config} {peer : IpAddr} {u : UserId} {r : ResourceId} {key : Key} {res : Resource} {pt : PortType}
    (h0 : SP0 mac peer u r key res pt (session mac sconf peer)) {n : NftNames} (hn : ChainOf fconf n)
    (hc : CanOpen fconf n peer res.port) {k0 : Kernel} {startOk : Bool} {sI : FwdState} (hstart : fwdStart fconf k0 startOk = some sI)
    {before : List FwdOp} (hb : (fwdRun fconf sI before).2.phase ≠ .stopped) (hfair : Fair fconf n sI before) {evs : List WEv} {W : Whole}
    (hrun : WSteps fconf (Whole.init mac sconf peer u r key (fwdRun fconf sI before).2) evs W) (hown : ∀ e ∈ evs, WEv.own e = true) :
    (ownSteps evs ≤ 13 ∧ wholeOps evs = []) ∨ (13 < ownSteps evs ∧ ∃ now, wholeOps evs = [.request (.msg (FwMessage.newOpen peer pt res.port)) now true]) := by
  generalize hi : Whole.init mac sconf peer u r key (fwdRun fconf sI before).2 = W0 at hrun
  induction hrun with
  | refl => exact .inl ⟨by simp [ownSteps], rfl⟩
  | @step W1 W2 evs e hr hs ih =>
    subst hi
    have hown' : ∀ e ∈ evs, WEv.own e = true := fun e he => hown e (by simp [he])
    have he := hown e (by simp)
    have hat := (whole_inv h0 hn hc hstart hb hr (fair_concat hfair (requests_fair (own_ops hown') _))
      (fun ok h => by obtain ⟨m, now, hx⟩ := own_ops hown' _ h; cases hx)).1
    rw [ownSteps_append, if_pos he, wholeOps_append]
    cases e with
    | exchange =>
      have hx : wholeOps [WEv.exchange] = [] := rfl
      rw [hx, List.append_nil]
      rcases ih hown' with ⟨h1, h2⟩ | ⟨h1, h2⟩
      · by_cases h13 : ownSteps evs = 13
        · rw [h13] at hat
          exact absurd rfl (exchange_not13 hat hs)
        · exact .inl ⟨by omega, h2⟩
      · exact .inr ⟨by omega, h2⟩
    | serve m now =>
      obtain ⟨h13, hm, _, _⟩ := wAt_serve mac peer u r key res pt hat hs
      subst hm
      rcases ih hown' with ⟨h1, h2⟩ | ⟨h1, h2⟩
      · exact .inr ⟨by omega, now, by rw [h2]; rfl⟩
      · omega
    | other op => cases he

/-- **C136** (the bound is exact). If the lease time isn't longer than the interval and fourteen delays, then there is a series in which everybody is prompt and which has a gap: the first run opens the port, the second
one starts in time, and before it has got to its request the port is closed. -/
theorem C136_bound_exact (mac : MacFn) (sconf fconf : Config) (peer : IpAddr) (u : UserId) (r : ResourceId) (key : Key) (res : Resource)
    (hk : sconf.key u = some key) (hg : Granted sconf u r res) (hpr : res.tcp = true ∨ res.udp = true)
    (n : NftNames) (hn : ChainOf fconf n) (hc : CanOpen fconf n peer res.port)
    (k0 : Kernel) (startOk : Bool) (sI : FwdState) (hstart : fwdStart fconf k0 startOk = some sI)
    (tc d p : Nat) (htc : 0 < tc) (hts : 0 < sconf.controlTimeout) (hto : 0 < fconf.nftTimeout) (hle : fconf.nftTimeout ≤ p + 14 * d) (t0 : Nat) :
    ∃ R evs T, Series mac sconf fconf peer u r key tc d p sI [] [R] ∧ R.start = t0 ∧ R.fin.W.client = .ret (.ok ()) ∧
      OpenFor n (fwdRun fconf sI R.ops).2.kernel peer res ∧
      PromptRun fconf tc sconf.controlTimeout d (Timed.init (Whole.init mac sconf peer u r key (fwdRun fconf sI R.ops).2) R.stop) evs T ∧
      Fair fconf n sI (R.ops ++ wholeOps (untimed evs)) ∧ (∀ ok, FwdOp.terminate ok ∉ R.ops ++ wholeOps (untimed evs)) ∧ T.W.fwd.phase = .running ∧
      ∀ pkt : Packet, pkt.src = hostOf peer → pkt.dport = res.port → chainAccepts n T.W.fwd.kernel pkt = false := by
  obtain ⟨pt, hpt⟩ : ∃ pt, res.portType = .ok pt := by
    unfold Resource.portType
    cases h1 : res.tcp <;> cases h2 : res.udp <;> simp_all
  have hu : res.containsUser u = true := by
    unfold Resource.containsUser
    rcases hg.allowed with h | h <;> simp [h]
  have h0 := server_SP0 mac sconf peer u r key res pt hk hg.configured hu hg.notControl hpt
  obtain ⟨hph, n', hn', hi⟩ := fwdStart_inv hstart
  have := chainOf_unique hn hn'
  subst this
  have hh : Healthy n sI := ⟨hph, (inv_running hi hph).2.1, (inv_running hi hph).1.supp⟩
  have own : ∀ evs : List (Nat × TEv), (∀ x ∈ evs, ∃ e, x.2 = .step e ∧ WEv.own e = true) → ∀ e ∈ untimed evs, WEv.own e = true := by
    intro evs h e he
    obtain ⟨x, hx, heq⟩ := List.mem_filterMap.1 he
    obtain ⟨e', h1, h2⟩ := h x hx
    rw [h1] at heq
    injection heq with heq
    exact heq ▸ h2
  -- the first run, at once
  have hb : (fwdRun fconf sI []).2.phase ≠ .stopped := by show sI.phase ≠ _; rw [hph]; simp
  obtain ⟨evs1, T1, hr1, ho1, hw1, hcount1, _, _, hnow1, _, _, _⟩ := slowest_run h0 hn hc hstart hb trivial tc sconf.controlTimeout 0 t0 18 (by decide)
  have hown1 := own evs1 ho1
  have hreq1 := own_ops hown1
  have hterm1 : ∀ ok, FwdOp.terminate ok ∉ wholeOps (untimed evs1) := fun ok h => by obtain ⟨m, now, hx⟩ := hreq1 _ h; cases hx
  have hf1 : Fair fconf n sI ([] ++ wholeOps (untimed evs1)) := requests_fair hreq1 _
  obtain ⟨_, _, _, hfin⟩ := C132_prompt_knock_succeeds mac sconf fconf peer u r key res hk hg hpr n hn hc k0 startOk sI hstart [] hb tc 0 t0 (by simpa using htc) (by simpa using hts)
    evs1 T1 hr1 hf1 hterm1
  have hend : ¬ Timed.canGo fconf T1 := by
    rintro ⟨e, W', h1, h2⟩
    have hown' : ∀ e' ∈ untimed evs1 ++ [e], WEv.own e' = true := by
      intro e' he'
      rcases List.mem_append.1 he' with h | h
      · exact hown1 e' h
      · rw [List.mem_singleton.1 h]; exact h1
    have := (whole_inv h0 hn hc hstart hb (.step hw1 h2) (requests_fair (own_ops hown') _)
      (fun ok h => by obtain ⟨m, now, hx⟩ := own_ops hown' _ h; cases hx)).1
    rw [ownSteps_append, hcount1, if_pos h1] at this
    exact absurd (wAt_le this) (by decide)
  rcases hfin with hfin | ⟨_, hcl, _, hopen⟩
  · exact absurd hfin hend
  obtain ⟨_, ⟨s, hops⟩⟩ : 13 < ownSteps (untimed evs1) ∧ ∃ now, wholeOps (untimed evs1) = [.request (.msg (FwMessage.newOpen peer pt res.port)) now true] := by
    rcases own_run_ops h0 hn hc hstart hb trivial hw1 hown1 with ⟨h, _⟩ | h
    · omega
    · exact h
  have hs : s = t0 := by
    have := (prompt_times hr1).2.1 _ (by rw [hops]; exact List.mem_singleton.2 rfl) s rfl
    have h2 : (Timed.init (Whole.init mac sconf peer u r key (fwdRun fconf sI []).2) t0).now = t0 := rfl
    omega
  subst hs
  let R : Round := { start := s, evs := evs1, fin := T1, idle := [], stop := s + p }
  have hR : R.ops = [.request (.msg (FwMessage.newOpen peer pt res.port)) s true] := by
    show wholeOps (untimed evs1) ++ [] = _
    rw [hops]; rfl
  have hfwd1 : T1.W.fwd = (fwdRun fconf sI R.ops).2 := by
    rw [whole_fwd hw1, hR, hops]; rfl
  -- the second run, up to its fourteenth step
  have hh1 : Healthy n (fwdRun fconf sI R.ops).2 := by rw [hR]; exact healthy_request hn hh _ _ _
  have hb1 : (fwdRun fconf sI R.ops).2.phase ≠ .stopped := by rw [hh1.run]; simp
  have hfR : Fair fconf n sI R.ops := by rw [hR]; exact ⟨trivial, trivial⟩
  obtain ⟨evs2, T2, hr2, ho2, hw2, hcount2, _, _, hnow2, hlast2, _, _⟩ := slowest_run h0 hn hc hstart hb1 hfR tc sconf.controlTimeout d (s + p) 13 (by decide)
  have hops2 : wholeOps (untimed evs2) = [] := by
    rcases own_run_ops h0 hn hc hstart hb1 hfR hw2 (own evs2 ho2) with ⟨_, h⟩ | ⟨h, _⟩
    · exact h
    · omega
  have hfwd2 : T2.W.fwd = (fwdRun fconf sI R.ops).2 := by rw [whole_fwd hw2, hops2]; rfl
  obtain ⟨W3, hs3, hfwd3⟩ : ∃ W3, WStep fconf T2.W (.other (.maintain (s + p + 14 * d) calmEnv)) W3 ∧ W3.fwd = (fwdStep fconf T2.W.fwd (.maintain (s + p + 14 * d) calmEnv)).2 := by
    obtain ⟨⟨a, b, c, e, f, g, h⟩, _, _, _, _⟩ := T2
    exact ⟨_, .other _, rfl⟩
  have hops3 : wholeOps (untimed (evs2 ++ [(s + p + 14 * d, .step (.other (.maintain (s + p + 14 * d) calmEnv)))])) = [.maintain (s + p + 14 * d) calmEnv] := by
    rw [untimed_split, hops2]; rfl
  have hack : (fwdStep fconf sI (.request (.msg (FwMessage.newOpen peer pt res.port)) s true)).1 = some FwMessage.newAck := by
    obtain ⟨a, b, now, h1, h2⟩ := (whole_inv h0 hn hc hstart hb hw1 hf1 hterm1).2 (by omega)
    rw [hops] at h1
    cases a with
    | nil =>
      simp only [List.nil_append, List.cons.injEq, FwdOp.request.injEq] at h1
      rw [← h1.1.2.1] at h2
      exact h2
    | cons x a => simp at h1
  have hfair3 : Fair fconf n sI (R.ops ++ [.maintain (s + p + 14 * d) calmEnv]) :=
    fair_concat hfR ⟨⟨fun _ => ⟨rfl, Nat.le_refl _⟩, fun _ => ⟨rfl, Nat.le_refl _⟩⟩, trivial⟩
  have hrun3 : W3.fwd = (fwdRun fconf sI (R.ops ++ [.maintain (s + p + 14 * d) calmEnv])).2 := by
    rw [hfwd3, hfwd2, fwdRun_snoc]
  have hphase3 : W3.fwd.phase = .running := by
    rw [hfwd3, hfwd2]
    exact (healthy_maintain hn hh1 _ rfl).run
  refine ⟨R, _, _, ⟨prompt_mono (Nat.zero_le d) hr1, hend, ?_, Nat.le_refl _, by simp [R], by simp, trivial⟩, rfl, hcl, ?_, .step hr2 (.other (t := s + p + 14 * d) ?_ ?_ hs3) ?_, ?_, ?_, hphase3, ?_⟩
  · show T1.now ≤ s + p
    omega
  · rw [← hfwd1]
    refine hopen ?_
    have h1 : T1.now = s := by rw [hnow1]; simp
    rw [h1]
    exact Nat.lt_add_of_pos_right hto
  · omega
  · intro at' h
    injection h with h
    exact h.symm
  · intro _
    omega
  · rw [hops3]; exact hfair3
  · rw [hops3, hR]; simp
  · intro pkt hsrc hport
    show chainAccepts n W3.fwd.kernel pkt = false
    rw [hrun3] at hphase3 ⊢
    cases hacc : chainAccepts n (fwdRun fconf sI (R.ops ++ [.maintain (s + p + 14 * d) calmEnv])).2.kernel pkt with
    | false => rfl
    | true =>
      rcases (C19_chain_equals_grants fconf n hn k0 startOk sI hstart _ hfair3 hphase3 pkt).1 hacc with ⟨_, h, _⟩ | ⟨addr, q, e, h, _⟩
      · exact absurd (hport.symm.trans h) hc.notControl
      · rw [fwdRun_snoc, after_append, hR] at h
        have hgr : granted (.request (.msg (FwMessage.newOpen peer pt res.port)) s true) (some FwMessage.newAck) = some (peer, selection pt res.port, s) := by
          have hgp : (FwMessage.newOpen peer pt res.port).getPort = some (pt, res.port) := rfl
          simp only [granted, newOpen_getAddr, hgp]
          rfl
        have hone : (fwdRun fconf sI [.request (.msg (FwMessage.newOpen peer pt res.port)) s true]).1 =
            [(.request (.msg (FwMessage.newOpen peer pt res.port)) s true, some FwMessage.newAck)] := by
          rw [← hack]; rfl
        rw [hone] at h
        simp only [Grants.after] at h
        generalize hx : (fwdStep fconf _ (.maintain (s + p + 14 * d) calmEnv)).1 = rep at h
        have hnone : granted (.maintain (s + p + 14 * d) calmEnv) rep = none := by cases rep <;> rfl
        have hst : ∀ g : Grants, g.step fconf.nftTimeout (.maintain (s + p + 14 * d) calmEnv) rep addr q =
            match g addr q with | some e => if s + p + 14 * d < e then some e else none | none => none := by
          intro g
          unfold Grants.step
          rw [hnone]
          cases hgq : g addr q <;> simp [hgq]
        rw [hst, step_granted hgr] at h
        split at h
        · rename_i e' he'
          split at he'
          · injection he' with he'
            have hno : ¬ (s + p + 14 * d < e') := by
              rw [← he', Nat.add_assoc]
              exact Nat.not_lt.2 (Nat.add_le_add_left hle s)
            rw [if_neg hno] at h
            cases h
          · cases he'
        · cases h

/-- With half a second for each step and a lease time of ten minutes a run every 593 seconds is too seldom. -/
example : ∃ R evs T, Series toyMac fwConf fwConf examplePeer ⟨0xA423DDA7⟩ ⟨0xBC5D8077⟩ (Arr.replicate 32 7) (5 * second) (second / 2) (593 * second) fwStarted [] [R] ∧
    OpenFor fwNames (fwdRun fwConf fwStarted R.ops).2.kernel examplePeer { port := 22, tcp := true, udp := false, users := [] } ∧
    PromptRun fwConf (5 * second) fwConf.controlTimeout (second / 2)
      (Timed.init (Whole.init toyMac fwConf examplePeer ⟨0xA423DDA7⟩ ⟨0xBC5D8077⟩ (Arr.replicate 32 7) (fwdRun fwConf fwStarted R.ops).2) R.stop) evs T ∧
    chainAccepts fwNames T.W.fwd.kernel ⟨hostOf examplePeer, .tcp, 22⟩ = false := by
  obtain ⟨R, evs, T, h1, _, _, h2, h3, _, _, _, h4⟩ := C136_bound_exact toyMac fwConf fwConf examplePeer ⟨0xA423DDA7⟩ ⟨0xBC5D8077⟩ (Arr.replicate 32 7)
    { port := 22, tcp := true, udp := false, users := [] }
    (by decide +kernel) ⟨by decide +kernel, by decide +kernel, by decide +kernel⟩ (.inl rfl) fwNames ⟨by decide, rfl, rfl, by decide, by decide⟩
    ⟨⟨(⟨0xBC5D8077⟩, { port := 22, tcp := true, udp := false, users := [] }), by decide +kernel, rfl⟩, by decide +kernel, by decide +kernel, by decide, by decide, by decide, by decide⟩
    fwKernel true fwStarted fwStarted_ok (5 * second) (second / 2) (593 * second) (by decide +kernel) (by decide +kernel) (by decide +kernel) (by decide +kernel) 0
  exact ⟨R, evs, T, h1, h2, h3, h4 _ rfl rfl⟩

/-- The client is run a thousand times, every nine minutes, with a lease time of ten minutes, half a second for each step and the default time limits: all succeed, and the port stays open. -/
example : ∃ rounds, rounds.length = 1000 ∧ (∀ R ∈ rounds, R.stop = R.start + 540 * second ∧ R.idle = [.maintain R.stop calmEnv]) ∧
    (∀ R ∈ rounds, R.fin.W.client = .ret (.ok ())) ∧
    ∀ R rest, rounds = R :: rest → ∀ upTo later, R.idle ++ rest.flatMap Round.ops = upTo ++ later →
      OpenFor fwNames (fwdRun fwConf fwStarted (wholeOps (untimed R.evs) ++ upTo)).2.kernel examplePeer { port := 22, tcp := true, udp := false, users := [] } := by
  have hk : fwConf.key ⟨0xA423DDA7⟩ = some (Arr.replicate 32 7) := by decide +kernel
  have hg : Granted fwConf ⟨0xA423DDA7⟩ ⟨0xBC5D8077⟩ { port := 22, tcp := true, udp := false, users := [] } := ⟨by decide +kernel, by decide +kernel, by decide +kernel⟩
  have hn : ChainOf fwConf fwNames := ⟨by decide, rfl, rfl, by decide, by decide⟩
  have hc : CanOpen fwConf fwNames examplePeer 22 :=
    ⟨⟨(⟨0xBC5D8077⟩, { port := 22, tcp := true, udp := false, users := [] }), by decide +kernel, rfl⟩, by decide +kernel, by decide +kernel, by decide, by decide, by decide, by decide⟩
  obtain ⟨rounds, h1, h2, h3, h4, h5, h6⟩ := C136_series_exists toyMac fwConf fwConf examplePeer ⟨0xA423DDA7⟩ ⟨0xBC5D8077⟩ (Arr.replicate 32 7) { port := 22, tcp := true, udp := false, users := [] }
    hk hg (.inl rfl) fwNames hn hc fwKernel true fwStarted fwStarted_ok (5 * second) (second / 2) (540 * second) (by decide +kernel) calmEnv rfl
    (fun _ => ⟨rfl, Nat.le_refl _⟩) (fun _ => ⟨rfl, Nat.le_refl _⟩) 1000 (7 * second)
  obtain ⟨a, b⟩ := C136_no_gap_between_runs toyMac fwConf fwConf examplePeer ⟨0xA423DDA7⟩ ⟨0xBC5D8077⟩ (Arr.replicate 32 7) { port := 22, tcp := true, udp := false, users := [] }
    hk hg (.inl rfl) fwNames hn hc fwKernel true fwStarted fwStarted_ok [] (5 * second) (second / 2) (540 * second) (by decide +kernel) (by decide +kernel) (by decide +kernel) rounds h2 h3 h4 h5
  exact ⟨rounds, h1, h6, a, b⟩

end Letmein.Props
