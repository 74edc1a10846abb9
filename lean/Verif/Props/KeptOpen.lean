import Verif.Props.FirewallMore

/-!
# Property C133: who knocks again in time keeps the port open without a gap
-/

namespace Letmein.Spec

open Letmein

/-- Does the message ask for this address and port selection? -/
def asksFor (addr : IpAddr) (t : PortType) (port : UInt16) : FwRecvOut → Bool
  | .msg m => decide (m.getAddr = some addr ∧ m.getPort = some (t, port))
  | _ => false

/-- After a request at time `last` each maintenance comes less than the lease time after the latest request for this address and port selection. -/
def KeptUp (timeout : Nat) (addr : IpAddr) (t : PortType) (port : UInt16) : Nat → List FwdOp → Prop
  | _, [] => True
  | last, .request rx now _ :: rest => KeptUp timeout addr t port (if asksFor addr t port rx then now else last) rest
  | last, .maintain now _ :: rest => now < last + timeout ∧ KeptUp timeout addr t port last rest
  | last, _ :: rest => KeptUp timeout addr t port last rest

end Letmein.Spec

namespace Letmein.Props

open Letmein Prog Spec

theorem step_not_running {conf : Config} {s : FwdState} (op : FwdOp) (h : (fwdStep conf s op).2.phase = .running) : s.phase = .running := by
  obtain ⟨phase, fw, k⟩ := s
  cases op with
  | foreign k => exact h
  | reorder l => exact h
  | terminate ok =>
    cases phase with
    | running => rfl
    | stopping => simp only [fwdStep] at h; split at h <;> cases h
    | _ => cases h
  | request rx now ok =>
    cases phase with
    | running => rfl
    | stopping => simp only [fwdStep] at h; split at h <;> cases h
    | _ => cases h
  | maintain now env =>
    cases phase with
    | running => rfl
    | _ => cases h

theorem running_before {conf : Config} {s : FwdState} {a b : List FwdOp} (h : (fwdRun conf s (a ++ b)).2.phase = .running) :
    (fwdRun conf s a).2.phase = .running := by
  rw [fwdRun_append] at h
  generalize (fwdRun conf s a).2 = q at h
  induction b generalizing q with
  | nil => exact h
  | cons op b ih => exact step_not_running op (ih _ h)

theorem fwdRun_snoc (conf : Config) (s : FwdState) (a : List FwdOp) (op : FwdOp) :
    fwdRun conf s (a ++ [op]) = ((fwdRun conf s a).1 ++ [(op, (fwdStep conf (fwdRun conf s a).2 op).1)], (fwdStep conf (fwdRun conf s a).2 op).2) := by
  rw [fwdRun_append]; rfl

theorem keptUp_prefix {timeout : Nat} {addr : IpAddr} {t : PortType} {port : UInt16} {last : Nat} {a b : List FwdOp} (h : KeptUp timeout addr t port last (a ++ b)) :
    KeptUp timeout addr t port last a := by
  induction a generalizing last with
  | nil => trivial
  | cons op a ih =>
    cases op with
    | maintain now env => exact ⟨h.1, ih h.2⟩
    | _ => exact ih h

/-- The table keeps the entry. -/
theorem kept_entry {conf : Config} {n : NftNames} (hn : ChainOf conf n) {k0 : Kernel} {ok0 : Bool} {s0 : FwdState}
    (h0 : fwdStart conf k0 ok0 = some s0) {addr : IpAddr} {t : PortType} {port : UInt16} (after before : List FwdOp) (last : Nat)
    (hf : Fair conf n s0 (before ++ after)) (hr : (fwdRun conf s0 (before ++ after)).2.phase = .running)
    (hg : Grants.none.after conf.nftTimeout (fwdRun conf s0 before).1 addr (selection t port) = some (last + conf.nftTimeout))
    (hk : KeptUp conf.nftTimeout addr t port last after) :
    (∃ e, Grants.none.after conf.nftTimeout (fwdRun conf s0 (before ++ after)).1 addr (selection t port) = some e) ∧
    ∀ x ∈ (fwdRun conf (fwdRun conf s0 before).2 after).1, ∀ rx now ok, x.1 = .request rx now ok → asksFor addr t port rx = true → x.2 = some FwMessage.newAck := by
  induction after generalizing before last with
  | nil => exact ⟨⟨_, by rw [List.append_nil]; exact hg⟩, by simp [fwdRun]⟩
  | cons op after ih =>
    have hsplit : before ++ op :: after = (before ++ [op]) ++ after := by simp
    rw [hsplit] at hf hr ⊢
    have hrun := running_before (running_before hr)
    have hfair := (fair_append (fair_append hf).1).1
    -- the answer to this operation and the entry after it
    have key : ∃ last', Grants.none.after conf.nftTimeout (fwdRun conf s0 (before ++ [op])).1 addr (selection t port) = some (last' + conf.nftTimeout) ∧
        KeptUp conf.nftTimeout addr t port last' after ∧
        (∀ rx now ok, op = .request rx now ok → asksFor addr t port rx = true → (fwdStep conf (fwdRun conf s0 before).2 op).1 = some FwMessage.newAck) := by
      by_cases hask : ∃ rx now ok, op = .request rx now ok ∧ asksFor addr t port rx = true
      · obtain ⟨rx, now, ok, rfl, ha⟩ := hask
        cases rx with
        | msg m =>
          have hm : m.getAddr = some addr ∧ m.getPort = some (t, port) := by simpa [asksFor] using ha
          obtain ⟨r1, _, _, r4⟩ := C21_renewal conf n hn k0 ok0 s0 h0 before hfair hrun addr t port _ hg m hm.1 hm.2 now ok
          refine ⟨now, r4, ?_, fun _ _ _ _ _ => r1⟩
          have := hk
          simp only [KeptUp, ha, if_true] at this
          exact this
        | _ => cases ha
      · have hkeep : KeptUp conf.nftTimeout addr t port last after := by
          cases op with
          | request rx now ok =>
            have hna : asksFor addr t port rx = false := by
              cases hx : asksFor addr t port rx with
              | false => rfl
              | true => exact absurd ⟨rx, now, ok, rfl, hx⟩ hask
            have := hk
            simp only [KeptUp, hna] at this
            exact this
          | maintain now env => exact hk.2
          | _ => exact hk
        refine ⟨last, ?_, hkeep, fun rx now ok he ha => absurd ⟨rx, now, ok, he, ha⟩ hask⟩
        rw [fwdRun_snoc, after_append]
        show ((Grants.none.after conf.nftTimeout (fwdRun conf s0 before).1).step conf.nftTimeout op _) addr (selection t port) = _
        cases hgr : granted op (fwdStep conf (fwdRun conf s0 before).2 op).1 with
        | some x =>
          obtain ⟨a, q, now⟩ := x
          rw [step_granted hgr]
          by_cases hid : addr = a ∧ selection t port = q
          · exfalso
            obtain ⟨rfl, rfl⟩ := hid
            unfold granted at hgr
            split at hgr
            · rename_i m now' ok' r heq
              split at hgr
              · split at hgr
                · rename_i a' t' port' ha' hp'
                  simp only [Option.some.injEq, Prod.mk.injEq] at hgr
                  obtain ⟨h1, h2, _⟩ := hgr
                  obtain ⟨rfl, rfl⟩ := selection_inj h2
                  exact hask ⟨_, _, _, rfl, by simp [asksFor, ha', hp', h1]⟩
                · cases hgr
              · cases hgr
            · cases hgr
          · rw [if_neg hid]; exact hg
        | none =>
          rcases step_none (t := conf.nftTimeout) (g := Grants.none.after conf.nftTimeout (fwdRun conf s0 before).1) hgr addr (selection t port) with ⟨now, env, rfl, hs⟩ | ⟨_, hs⟩
          · rw [hs, hg]
            have : now < last + conf.nftTimeout := hk.1
            simp [this]
          · rw [hs]; exact hg
    obtain ⟨last', h1, h2, h3⟩ := key
    obtain ⟨h4, h5⟩ := ih (before ++ [op]) last' hf hr h1 h2
    refine ⟨h4, fun x hx rx now ok he ha => ?_⟩
    simp only [fwdRun, List.mem_cons] at hx
    rcases hx with rfl | hx
    · exact h3 rx now ok he ha
    · rw [fwdRun_snoc] at h5
      exact h5 x hx rx now ok he ha

/-- **C133**. letmeinfwd has acknowledged a request, and each later maintenance comes less than the lease time after the latest request for the same address and port selection. Then every such request is acknowledged, even if `nft`
fails then; and the packets it is about are accepted at all times since the first, whatever else happens: other requests, failures of `nft` that letmeinfwd gets over, other programs at other chains. Nothing is assumed about the clock. -/
theorem C133_no_gap (conf : Config) (n : NftNames) (hn : ChainOf conf n) (k0 : Kernel) (ok0 : Bool) (s0 : FwdState)
    (h0 : fwdStart conf k0 ok0 = some s0) (before after : List FwdOp) (addr : IpAddr) (t : PortType) (port : UInt16) (m : FwMessage) (first : Nat) (nftOk : Bool)
    (hask : asksFor addr t port (.msg m) = true)
    (hack : (fwdStep conf (fwdRun conf s0 before).2 (.request (.msg m) first nftOk)).1 = some FwMessage.newAck)
    (hf : Fair conf n s0 (before ++ .request (.msg m) first nftOk :: after))
    (hr : (fwdRun conf s0 (before ++ .request (.msg m) first nftOk :: after)).2.phase = .running)
    (hk : KeptUp conf.nftTimeout addr t port first after) :
    (∀ x ∈ (fwdRun conf (fwdRun conf s0 (before ++ [.request (.msg m) first nftOk])).2 after).1, ∀ rx now ok, x.1 = .request rx now ok →
      asksFor addr t port rx = true → x.2 = some FwMessage.newAck) ∧
    ∀ upTo later, after = upTo ++ later → ∀ pkt, covers addr (selection t port) pkt →
      chainAccepts n (fwdRun conf s0 (before ++ .request (.msg m) first nftOk :: upTo)).2.kernel pkt = true := by
  have hm : m.getAddr = some addr ∧ m.getPort = some (t, port) := by simpa [asksFor] using hask
  have hgr : granted (.request (.msg m) first nftOk) (some FwMessage.newAck) = some (addr, selection t port, first) := by
    simp only [granted, hm.1, hm.2]
    rfl
  have hg : Grants.none.after conf.nftTimeout (fwdRun conf s0 (before ++ [.request (.msg m) first nftOk])).1 addr (selection t port) = some (first + conf.nftTimeout) := by
    rw [fwdRun_snoc, after_append, hack]
    show ((Grants.none.after conf.nftTimeout (fwdRun conf s0 before).1).step conf.nftTimeout _ _) addr (selection t port) = _
    rw [step_granted hgr, if_pos ⟨rfl, rfl⟩]
  have hsplit : ∀ l, before ++ .request (.msg m) first nftOk :: l = (before ++ [.request (.msg m) first nftOk]) ++ l := fun l => by simp
  refine ⟨(kept_entry hn h0 after _ first (by rw [← hsplit]; exact hf) (by rw [← hsplit]; exact hr) hg hk).2, ?_⟩
  rintro upTo later rfl pkt hc
  have hf' : Fair conf n s0 (before ++ .request (.msg m) first nftOk :: upTo) := by
    rw [hsplit, ← List.append_assoc, ← hsplit] at hf
    exact (fair_append hf).1
  have hr' : (fwdRun conf s0 (before ++ .request (.msg m) first nftOk :: upTo)).2.phase = .running := by
    rw [hsplit, ← List.append_assoc, ← hsplit] at hr
    exact running_before hr
  obtain ⟨⟨e, he⟩, _⟩ := kept_entry hn h0 upTo _ first (by rw [← hsplit]; exact hf') (by rw [← hsplit]; exact hr') hg (keptUp_prefix hk)
  rw [C19_chain_equals_grants conf n hn k0 ok0 s0 h0 _ hf' hr' pkt]
  exact .inr ⟨addr, _, e, by rw [hsplit]; exact he, hc⟩

/-- The condition on the time of maintenance is needed: with a maintenance at the end of the lease time the port is closed. -/
theorem C133_late_closes : ∃ after : List FwdOp, Fair fwConf fwNames fwStarted (.request (.msg (FwMessage.newOpen examplePeer .Tcp 22)) second true :: after) ∧
    (fwdRun fwConf fwStarted (.request (.msg (FwMessage.newOpen examplePeer .Tcp 22)) second true :: after)).2.phase = .running ∧
    (∀ now env, FwdOp.maintain now env ∈ after → now ≤ second + fwConf.nftTimeout) ∧
    chainAccepts fwNames (fwdRun fwConf fwStarted (.request (.msg (FwMessage.newOpen examplePeer .Tcp 22)) second true :: after)).2.kernel ⟨examplePeer, .tcp, 22⟩ = false := by
  refine ⟨[.maintain (second + fwConf.nftTimeout) calmEnv], ⟨trivial, ⟨fun _ => ⟨rfl, Nat.le_refl _⟩, fun _ => ⟨rfl, Nat.le_refl _⟩⟩, trivial⟩, by decide +kernel, ?_, by decide +kernel⟩
  intro now env h
  simp only [List.mem_singleton, FwdOp.maintain.injEq] at h
  omega

/-- Knocking every five minutes with a lease time of ten, with `nft` failing once, another client whose rules have to be removed meanwhile, and a removal that fails. -/
def keptHistory : List FwdOp :=
  [.request (.msg (FwMessage.newOpen (.v4 ⟨[192, 0, 2, 8], rfl⟩) .TcpUdp 443)) (2 * second) true,
   .maintain (299 * second) calmEnv,
   .request (.msg (FwMessage.newOpen examplePeer .Tcp 22)) (300 * second) false,
   .maintain (605 * second) { calmEnv with deleteOk := false },
   .request (.msg (FwMessage.newOpen examplePeer .Tcp 22)) (610 * second) true,
   .maintain (1200 * second) calmEnv]

example (pkt : Packet) (h : covers examplePeer (.Tcp 22) pkt) :
    chainAccepts fwNames (fwdRun fwConf fwStarted (.request (.msg (FwMessage.newOpen examplePeer .Tcp 22)) second true :: keptHistory)).2.kernel pkt = true := by
  have calm : ∀ ok, OpFair fwNames fwStarted (.maintain 0 { calmEnv with deleteOk := ok }) := fun _ => ⟨fun _ => ⟨rfl, Nat.le_refl _⟩, fun _ => ⟨rfl, Nat.le_refl _⟩⟩
  exact (C133_no_gap fwConf fwNames ⟨by decide, rfl, rfl, by decide, by decide⟩ fwKernel true fwStarted fwStarted_ok [] keptHistory examplePeer .Tcp 22
    (FwMessage.newOpen examplePeer .Tcp 22) second true (by decide +kernel) (by decide +kernel)
    ⟨trivial, trivial, calm true, trivial, calm false, trivial, calm true, trivial⟩ (by decide +kernel)
    (by simp only [keptHistory, KeptUp]; decide +kernel)).2 keptHistory [] (by simp) pkt h

end Letmein.Props
