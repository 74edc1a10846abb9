import Verif.Lemmas.FwServer
import Verif.Props.Session

/-!
# Properties C17–C25 and C49: the firewall daemon

The theorems are about every history of the daemon: every sequence of requests, maintenance runs, failures of `nft`,
changes by other programs outside the chain, and every hash map order.
-/

namespace Letmein.Props

open Letmein Prog Spec

/-! ## Histories -/

theorem fwdRun_append (conf : Config) (s : FwdState) (a b : List FwdOp) :
    fwdRun conf s (a ++ b) = ((fwdRun conf s a).1 ++ (fwdRun conf (fwdRun conf s a).2 b).1, (fwdRun conf (fwdRun conf s a).2 b).2) := by
  induction a generalizing s with
  | nil => rfl
  | cons op a ih => simp [fwdRun, ih]

theorem fwdRun_ops (conf : Config) (s : FwdState) (ops : List FwdOp) : (fwdRun conf s ops).1.map (·.1) = ops := by
  induction ops generalizing s with
  | nil => rfl
  | cons op rest ih => simp [fwdRun, ih]

theorem fair_append {conf : Config} {n : NftNames} {s : FwdState} {a b : List FwdOp} (h : Fair conf n s (a ++ b)) :
    Fair conf n s a ∧ Fair conf n (fwdRun conf s a).2 b := by
  induction a generalizing s with
  | nil => exact ⟨trivial, h⟩
  | cons op a ih => exact ⟨⟨h.1, (ih h.2).1⟩, (ih h.2).2⟩

theorem after_append (t : Nat) (g : Grants) (a b : List (FwdOp × Option FwMessage)) :
    g.after t (a ++ b) = (g.after t a).after t b := by
  induction a generalizing g with
  | nil => rfl
  | cons x a ih => obtain ⟨op, r⟩ := x; exact ih _

/-- Every entry of a history is a step taken in some state. -/
theorem mem_fwdRun {conf : Config} {s : FwdState} {ops : List FwdOp} {x : FwdOp × Option FwMessage}
    (h : x ∈ (fwdRun conf s ops).1) : ∃ s', x.2 = (fwdStep conf s' x.1).1 := by
  induction ops generalizing s with
  | nil => cases h
  | cons op rest ih =>
    simp only [fwdRun, List.mem_cons] at h
    rcases h with rfl | h
    · exact ⟨s, rfl⟩
    · exact ih h

/-- The invariant in a running daemon. -/
theorem inv_running {conf : Config} {n : NftNames} {s : FwdState} {g : Grants} (h : FwdInv conf n s g) (hp : s.phase = .running) :
    LeasesOk n s.fw.leases ∧ s.fw.shutdown = false ∧ ChainOk conf n s.fw.leases s.kernel ∧ TableOf s.fw.leases g := by
  unfold FwdInv at h
  rw [hp] at h
  exact h

theorem step_granted {t : Nat} {g : Grants} {op : FwdOp} {r : Option FwMessage} {addr : IpAddr} {p : LeasePort} {now : Nat}
    (h : granted op r = some (addr, p, now)) (a : IpAddr) (q : LeasePort) :
    g.step t op r a q = if a = addr ∧ q = p then some (now + t) else g a q := by
  simp only [Grants.step, h]

/-- Effect on one entry of an operation that grants nothing. -/
theorem step_none {t : Nat} {g : Grants} {op : FwdOp} {r : Option FwMessage} (h : granted op r = none) (a : IpAddr) (q : LeasePort) :
    (∃ now env, op = .maintain now env ∧ g.step t op r a q = (g a q).filter (fun e => decide (now < e))) ∨
    ((∀ now env, op ≠ .maintain now env) ∧ g.step t op r a q = g a q) := by
  simp only [Grants.step, h]
  cases op with
  | maintain now env =>
    refine .inl ⟨now, env, rfl, ?_⟩
    simp only
    cases g a q with
    | none => rfl
    | some e => by_cases hlt : now < e <;> simp [hlt, Option.filter]
  | _ => exact .inr ⟨by simp, rfl⟩

/-! ## C17 -/

theorem handleMessage_cases (conf : Config) (fw : NftFirewall) (k : Kernel) (rx : FwRecvOut) (now : Nat) (ok : Bool) :
    (∃ a p, fwdDecide conf rx = .openPort a p) ∨
    (handleMessage conf fw k rx now ok = (.err, none, fw, k) ∨
      handleMessage conf fw k rx now ok = (.err, some FwMessage.newNack, fw, k)) := by
  unfold handleMessage
  split
  · exact .inr (.inl rfl)
  · exact .inr (.inr rfl)
  · rename_i h; exact .inl ⟨_, _, h⟩

theorem mem_of_resourceIdByPort {port : UInt16} {rs : List (ResourceId × Resource)}
    (h : (resourceIdByPort port none rs).isSome = true) : ∃ e ∈ rs, e.2.port = port := by
  induction rs with
  | nil => simp [resourceIdByPort] at h
  | cons e rs ih =>
    obtain ⟨k, v⟩ := e
    rw [resourceIdByPort] at h
    split at h
    · rename_i hp; exact ⟨(k, v), by simp, hp⟩
    · obtain ⟨e, he, hp⟩ := ih h
      exact ⟨e, by simp [he], hp⟩

/-- **C17**. If a message makes letmeinfwd change its leases or the ruleset, or is acknowledged, then it is an Open for an
address other than all-zeros and all-ones, for the port of some configured resource that is not the control port.
(In any state of the daemon, whatever the message.) -/
theorem C17_only_configured_requests (conf : Config) (s : FwdState) (rx : FwRecvOut) (now : Nat) (nftOk : Bool)
    (h : (fwdStep conf s (.request rx now nftOk)).2 ≠ s ∨
      ∃ r, (fwdStep conf s (.request rx now nftOk)).1 = some r ∧ r.operation = .Ack) :
    ∃ m addr t port, rx = .msg m ∧ m.operation = .Open ∧ m.getAddr = some addr ∧ m.getPort = some (t, port) ∧
      addr ≠ .v4 (Arr.replicate 4 0) ∧ addr ≠ .v4 (Arr.replicate 4 0xFF) ∧
      addr ≠ .v6 (Arr.replicate 16 0) ∧ addr ≠ .v6 (Arr.replicate 16 0xFF) ∧
      (∃ e ∈ conf.resources, e.2.port = port) ∧ port ≠ conf.port.port := by
  obtain ⟨phase, fw, k⟩ := s
  rcases handleMessage_cases conf fw k rx now nftOk with ⟨a, p, hd⟩ | he
  · obtain ⟨m, t, port, h1, h2, h3, h4, _, h6, h7, h8⟩ := fwdDecide_open hd
    refine ⟨m, a, t, port, h1, h2, h3, h4, ?_, ?_, ?_, ?_, mem_of_resourceIdByPort h7, h8⟩ <;>
      intro ha <;> subst ha <;> simp [addrCheck] at h6
  · exfalso
    rcases he with he | he <;> cases phase <;> simp [fwdStep, he, FwMessage.newNack] at h

/-- **C17** (replies). A message that is not an Open with these properties is answered with nothing or Nack. -/
theorem C17_others_refused (conf : Config) (s : FwdState) (rx : FwRecvOut) (now : Nat) (nftOk : Bool)
    (h : ¬ ∃ m addr t port, rx = .msg m ∧ m.operation = .Open ∧ m.getAddr = some addr ∧ m.getPort = some (t, port) ∧
      addr ≠ .v4 (Arr.replicate 4 0) ∧ addr ≠ .v4 (Arr.replicate 4 0xFF) ∧
      addr ≠ .v6 (Arr.replicate 16 0) ∧ addr ≠ .v6 (Arr.replicate 16 0xFF) ∧
      (∃ e ∈ conf.resources, e.2.port = port) ∧ port ≠ conf.port.port) :
    (fwdStep conf s (.request rx now nftOk)).2 = s ∧
      ((fwdStep conf s (.request rx now nftOk)).1 = none ∨ (fwdStep conf s (.request rx now nftOk)).1 = some FwMessage.newNack) := by
  obtain ⟨phase, fw, k⟩ := s
  refine ⟨Classical.byContradiction fun hne => h (C17_only_configured_requests conf _ rx now nftOk (.inl hne)), ?_⟩
  rcases handleMessage_cases conf fw k rx now nftOk with ⟨a, p, hd⟩ | he
  · obtain ⟨m, t, port, h1, h2, h3, h4, _, h6, h7, h8⟩ := fwdDecide_open hd
    exfalso
    refine h ⟨m, a, t, port, h1, h2, h3, h4, ?_, ?_, ?_, ?_, mem_of_resourceIdByPort h7, h8⟩ <;>
      intro ha <;> subst ha <;> simp [addrCheck] at h6
  · rcases he with he | he <;> cases phase <;> simp [fwdStep, he]

/-! ## C19 -/

/-- **C19** (refinement). In a running daemon, after any history, the chain accepts a packet if and only if the packet goes
to an enabled control port (and the chain sees its address family), or the table of grants computed from the history of
requests and answers contains an entry covering the packet. -/
theorem C19_chain_equals_grants (conf : Config) (n : NftNames) (hn : ChainOf conf n) (k0 : Kernel) (ok0 : Bool) (s0 : FwdState)
    (h0 : fwdStart conf k0 ok0 = some s0) (ops : List FwdOp) (hf : Fair conf n s0 ops)
    (hr : (fwdRun conf s0 ops).2.phase = .running) (pkt : Packet) :
    chainAccepts n (fwdRun conf s0 ops).2.kernel pkt = true ↔
      (familySees n.family pkt.src = true ∧ toControlPort conf pkt) ∨
      ∃ addr p e, Grants.none.after conf.nftTimeout (fwdRun conf s0 ops).1 addr p = some e ∧ covers addr p pkt := by
  obtain ⟨_, n', hn', hi⟩ := fwdStart_inv h0
  obtain rfl := chainOf_unique hn hn'
  have h := fwdRun_inv hn hi ops hf
  generalize fwdRun conf s0 ops = q at *
  obtain ⟨hist, s⟩ := q
  obtain ⟨h1, _, h3, h4⟩ := inv_running h hr
  rw [chainOk_accepts h1 h3 pkt]
  constructor
  · rintro (hx | ⟨e, he, hc⟩)
    · exact .inl hx
    · exact .inr ⟨_, _, _, (h4 e.1.1 e.1.2 e.2.timeout).2 ⟨e.2, he, rfl⟩, hc⟩
  · rintro (hx | ⟨a, p, e, hg, hc⟩)
    · exact .inl hx
    · obtain ⟨l, hm, _⟩ := (h4 a p e).1 hg
      exact .inr ⟨_, hm, hc⟩

/-- The operation cannot stop the daemon: it is no termination, and if it is maintenance, a rebuild of the chain would
succeed. -/
def harmless : FwdOp → Prop
  | .terminate _ => False
  | .maintain _ env => env.rebuildOk = true
  | _ => True

theorem fullRebuild_ok {conf : Config} {n : NftNames} (hn : ChainOf conf n) {fw : NftFirewall}
    (hs : ∀ e ∈ fw.leases, Supported n.family e.2.addr) (hd : fw.shutdown = false) (k : Kernel) :
    (fullRebuild conf fw k true).1 = .ok () := by
  unfold fullRebuild
  rw [rebuildCmds_ok hn hs hd]
  obtain ⟨k', h1, _⟩ := rebuild_apply (n := n) k (ctrlContents conf ++ fw.leases.flatMap (fun e => leaseContents n.family e.2))
  simp only [applyBatch, h1, if_true]

theorem step_running {conf : Config} {n : NftNames} (hn : ChainOf conf n) {s : FwdState} {g : Grants} (h : FwdInv conf n s g)
    (hp : s.phase = .running) {op : FwdOp} (hf : OpFair n s op) (hh : harmless op) : (fwdStep conf s op).2.phase = .running := by
  obtain ⟨phase, fw, k⟩ := s
  simp only at hp
  subst hp
  simp only [FwdInv] at h
  obtain ⟨h1, h2, h3, h4⟩ := h
  cases op with
  | foreign k' => rfl
  | reorder l => rfl
  | terminate ok => exact hh.elim
  | request rx now ok =>
    rcases request_cases hn h1 h3.ok h2 rx now ok with ⟨r, reply, he, hnp, _, _⟩ | ⟨_, _, _, _, _, he, _⟩
    · cases r with
      | panic => exact absurd rfl hnp
      | ok u => simp only [fwdStep, he]
      | err => simp only [fwdStep, he]
    · simp only [fwdStep, he]
  | maintain now env =>
    obtain ⟨hu, hu'⟩ := hf
    obtain ⟨r, k', he, _⟩ := maintain_cases hn h1 h3 h2 now env hu hu'
    have hok : (fw.maintain conf k now env).1 = .ok () := by
      unfold NftFirewall.maintain
      rw [if_neg (by simp [h2])]
      by_cases hemp : (pruneAllLeaseTimeouts now fw.leases).2.isEmpty = true
      · simp only [hemp, if_true]
      · simp only [hemp, if_false, Bool.false_eq_true]
        rcases removeLeases_cases hn h3 (fun e => e.2.isTimedOut now) env hu with ⟨k1, e1, _⟩ | ⟨k1, e1, _⟩
        · have e1 : removeLeases conf (pruneAllLeaseTimeouts now fw.leases).2 k env = _ := e1
          rw [e1]
        · have e1 : removeLeases conf (pruneAllLeaseTimeouts now fw.leases).2 k env = _ := e1
          rw [e1]
          simp only
          have hrb : env.rebuildOk = true := hh
          rw [hrb]
          exact fullRebuild_ok hn (fw := { fw with leases := fw.leases.filter (fun e => !e.2.isTimedOut now) }) (h1.filter _).supp h2 _
    rw [he] at hok
    simp only at hok
    subst hok
    simp only [fwdStep, he]

/-- **C19** (the daemon keeps running). As long as it is not told to terminate and a full rebuild of the chain never fails, the
daemon stays in the running state, whatever else fails: adding rules, listing them, or deleting them. -/
theorem C19_keeps_running (conf : Config) (n : NftNames) (hn : ChainOf conf n) (k0 : Kernel) (ok0 : Bool) (s0 : FwdState)
    (h0 : fwdStart conf k0 ok0 = some s0) (ops : List FwdOp) (hf : Fair conf n s0 ops) (hh : ∀ op ∈ ops, harmless op) :
    (fwdRun conf s0 ops).2.phase = .running := by
  obtain ⟨hp, n', hn', hi⟩ := fwdStart_inv h0
  obtain rfl := chainOf_unique hn hn'
  clear h0
  generalize Grants.none = g at hi
  induction ops generalizing s0 g with
  | nil => exact hp
  | cons op rest ih =>
    exact ih _ hf.2 (fun o ho => hh o (by simp [ho])) (step_running hn hi hp hf.1 (hh op (by simp))) _ (fwdStep_inv hn hi op hf.1)

/-! ## C20 -/

/-- An entry of the table comes from an acknowledged request that no later maintenance run found expired. -/
theorem grants_origin {t : Nat} {g : Grants} {h : List (FwdOp × Option FwMessage)} {a : IpAddr} {p : LeasePort} {e : Nat}
    (hg : g.after t h a p = some e) :
    (g a p = some e ∧ ∀ now env r, (FwdOp.maintain now env, r) ∈ h → now < e) ∨
    ∃ h1 x h2 to, h = h1 ++ x :: h2 ∧ granted x.1 x.2 = some (a, p, to) ∧ e = to + t ∧
      ∀ now env r, (FwdOp.maintain now env, r) ∈ h2 → now < e := by
  induction h generalizing g with
  | nil => exact .inl ⟨hg, by simp⟩
  | cons x h ih =>
    obtain ⟨op, reply⟩ := x
    rw [Grants.after] at hg
    rcases ih hg with ⟨hg', hm⟩ | ⟨h1, x, h2, to, rfl, h3, h4, h5⟩
    · cases hgr : granted op reply with
      | some x =>
        obtain ⟨addr, q, now⟩ := x
        rw [step_granted hgr] at hg'
        by_cases hid : a = addr ∧ p = q
        · rw [if_pos hid] at hg'
          injection hg' with hg'
          obtain ⟨rfl, rfl⟩ := hid
          exact .inr ⟨[], (op, reply), h, now, rfl, hgr, hg'.symm, hm⟩
        · rw [if_neg hid] at hg'
          left
          refine ⟨hg', ?_⟩
          intro now' env r hmem
          rcases List.mem_cons.1 hmem with heq | hmem
          · injection heq with he1 he2
            rw [← he1] at hgr
            simp [granted] at hgr
          · exact hm now' env r hmem
      | none =>
        left
        rcases step_none (t := t) (g := g) hgr a p with ⟨now, env, rfl, hs⟩ | ⟨hno, hs⟩
        · rw [hs, Option.filter_eq_some_iff] at hg'
          refine ⟨hg'.1, ?_⟩
          intro now' env' r hmem
          rcases List.mem_cons.1 hmem with heq | hmem
          · injection heq with he1 he2
            injection he1 with he1 _
            have := hg'.2
            simp at this
            omega
          · exact hm now' env' r hmem
        · rw [hs] at hg'
          refine ⟨hg', ?_⟩
          intro now' env' r hmem
          rcases List.mem_cons.1 hmem with heq | hmem
          · injection heq with he1 he2
            exact absurd he1.symm (hno _ _)
          · exact hm now' env' r hmem
    · exact .inr ⟨(op, reply) :: h1, x, h2, to, rfl, h3, h4, h5⟩

theorem granted_time {op : FwdOp} {r : Option FwMessage} {a : IpAddr} {p : LeasePort} {to : Nat}
    (h : granted op r = some (a, p, to)) : FwdOp.time op = some to := by
  unfold granted at h
  split at h
  · split at h
    · split at h
      · simp at h; simp [FwdOp.time, h.2.2]
      · cases h
    · cases h
  · cases h

/-- **C20** (ports close). Times do not go backwards and at time `t` some maintenance run lies at most `P` back. Then a packet the
chain of a running daemon accepts at `t`, other than to the control port, is covered by a request acknowledged no
earlier than `t - timeout - P`. -/
theorem C20_bounded (conf : Config) (n : NftNames) (hn : ChainOf conf n) (k0 : Kernel) (ok0 : Bool) (s0 : FwdState)
    (h0 : fwdStart conf k0 ok0 = some s0) (ops : List FwdOp) (hf : Fair conf n s0 ops)
    (hr : (fwdRun conf s0 ops).2.phase = .running) (hch : Chronological ops) (t P tm : Nat) (env : NftEnv)
    (hm : FwdOp.maintain tm env ∈ ops) (ht : t ≤ tm + P) (pkt : Packet)
    (hacc : chainAccepts n (fwdRun conf s0 ops).2.kernel pkt = true) (hnc : ¬ toControlPort conf pkt) :
    ∃ x ∈ (fwdRun conf s0 ops).1, ∃ addr p to, granted x.1 x.2 = some (addr, p, to) ∧ covers addr p pkt ∧
      t ≤ to + conf.nftTimeout + P := by
  rcases (C19_chain_equals_grants conf n hn k0 ok0 s0 h0 ops hf hr pkt).1 hacc with ⟨_, h⟩ | ⟨addr, p, e, hg, hc⟩
  · exact absurd h hnc
  · rcases grants_origin hg with ⟨h, _⟩ | ⟨h1, x, h2, to, hh, hx, he, hlt⟩
    · simp [Grants.none] at h
    · refine ⟨x, by rw [hh]; simp, addr, p, to, hx, hc, ?_⟩
      have hops := fwdRun_ops conf s0 ops
      rw [hh] at hops
      simp only [List.map_append, List.map_cons] at hops
      rw [← hops] at hm hch
      rcases List.mem_append.1 hm with hm | hm
      · -- before the request
        have hle : tm ≤ to := by
          unfold Chronological at hch
          rw [List.filterMap_append, List.pairwise_append] at hch
          refine hch.2.2 tm (List.mem_filterMap.2 ⟨_, hm, rfl⟩) to (List.mem_filterMap.2 ⟨x.1, by simp, granted_time hx⟩)
        omega
      · rcases List.mem_cons.1 hm with hm | hm
        · rw [← hm] at hx; simp [granted] at hx
        · obtain ⟨y, hy, hy2⟩ := List.mem_map.1 hm
          have := hlt tm env y.2 (by rw [← hy2]; exact hy)
          omega

/-- An entry survives while maintenance runs lie before its expiry and renewals only move it forward. -/
theorem grants_survive {t : Nat} {g : Grants} {h : List (FwdOp × Option FwMessage)} {a : IpAddr} {p : LeasePort} {e : Nat}
    (hg : g a p = some e) (hm : ∀ now env r, (FwdOp.maintain now env, r) ∈ h → now < e)
    (hl : ∀ x ∈ h, ∀ to, granted x.1 x.2 = some (a, p, to) → e ≤ to + t) :
    ∃ e', g.after t h a p = some e' ∧ e ≤ e' := by
  suffices ∀ e0, g a p = some e0 → e ≤ e0 → ∃ e', g.after t h a p = some e' ∧ e ≤ e' from this e hg (Nat.le_refl _)
  clear hg
  intro e0 hg hle
  induction h generalizing g e0 with
  | nil => exact ⟨e0, hg, hle⟩
  | cons x h ih =>
    obtain ⟨op, reply⟩ := x
    rw [Grants.after]
    have hstep : ∃ e1, g.step t op reply a p = some e1 ∧ e ≤ e1 := by
      cases hgr : granted op reply with
      | some x =>
        obtain ⟨addr, q, now⟩ := x
        rw [step_granted hgr]
        by_cases hid : a = addr ∧ p = q
        · rw [if_pos hid]
          obtain ⟨rfl, rfl⟩ := hid
          exact ⟨_, rfl, hl (op, reply) (by simp) now hgr⟩
        · rw [if_neg hid]
          exact ⟨e0, hg, hle⟩
      | none =>
        rcases step_none (t := t) (g := g) hgr a p with ⟨now, env, rfl, hs⟩ | ⟨_, hs⟩
        · have := hm now env reply (by simp)
          rw [hs, hg]
          have hlt : now < e0 := by omega
          exact ⟨e0, by simp [hlt], hle⟩
        · exact ⟨e0, by rw [hs]; exact hg, hle⟩
    obtain ⟨e1, h1, h2⟩ := hstep
    exact ih (fun now env r hx => hm now env r (by simp [hx])) (fun x hx => hl x (by simp [hx])) e1 h1 h2

/-- **C20** (not early). While every maintenance run after an acknowledged request has a clock below the request's time plus the
timeout, the packets it covers are accepted by the running daemon's chain. -/
theorem C20_not_early (conf : Config) (n : NftNames) (hn : ChainOf conf n) (k0 : Kernel) (ok0 : Bool) (s0 : FwdState)
    (h0 : fwdStart conf k0 ok0 = some s0) (ops : List FwdOp) (hf : Fair conf n s0 ops)
    (hr : (fwdRun conf s0 ops).2.phase = .running) (hch : Chronological ops)
    (h1 h2 : List (FwdOp × Option FwMessage)) (x : FwdOp × Option FwMessage) (hh : (fwdRun conf s0 ops).1 = h1 ++ x :: h2)
    (addr : IpAddr) (p : LeasePort) (to : Nat) (hx : granted x.1 x.2 = some (addr, p, to))
    (hm : ∀ now env r, (FwdOp.maintain now env, r) ∈ h2 → now < to + conf.nftTimeout) (pkt : Packet) (hc : covers addr p pkt) :
    chainAccepts n (fwdRun conf s0 ops).2.kernel pkt = true := by
  rw [C19_chain_equals_grants conf n hn k0 ok0 s0 h0 ops hf hr pkt]
  right
  rw [hh, after_append]
  obtain ⟨op, reply⟩ := x
  rw [Grants.after]
  have hg : ((Grants.none.after conf.nftTimeout h1).step conf.nftTimeout op reply) addr p = some (to + conf.nftTimeout) := by
    simp only at hx
    simp [Grants.step, hx]
  have hops := fwdRun_ops conf s0 ops
  rw [hh] at hops
  simp only [List.map_append, List.map_cons] at hops
  rw [← hops] at hch
  obtain ⟨e', he', _⟩ := grants_survive (t := conf.nftTimeout) (h := h2) hg hm (by
    intro y hy to' hy'
    have hle : to ≤ to' := by
      unfold Chronological at hch
      rw [List.filterMap_append, List.pairwise_append] at hch
      have h3 := hch.2.1
      have hop : FwdOp.time op = some to := granted_time hx
      rw [List.filterMap_cons, hop] at h3
      simp only [List.pairwise_cons] at h3
      exact h3.1 to' (List.mem_filterMap.2 ⟨y.1, List.mem_map_of_mem hy, granted_time hy'⟩)
    omega)
  exact ⟨addr, p, e', he', hc⟩

/-! ## C21 -/

theorem ack_decide {conf : Config} {s : FwdState} {rx : FwRecvOut} {now : Nat} {ok : Bool} {a : IpAddr} {p : LeasePort} {to : Nat}
    (h : granted (.request rx now ok) (fwdStep conf s (.request rx now ok)).1 = some (a, p, to)) :
    fwdDecide conf rx = .openPort a p := by
  obtain ⟨phase, fw, k⟩ := s
  rcases handleMessage_cases conf fw k rx now ok with ⟨a', p', hd⟩ | he
  · obtain ⟨m, t, port, rfl, _, h3, h4, h5, _⟩ := fwdDecide_open hd
    have : a' = a ∧ p' = p := by
      unfold granted at h
      split at h
      · rename_i m' now' ok' r heq1 heq2
        injection heq1 with heq1 _ _
        injection heq1 with heq1
        subst heq1
        rw [h3, h4] at h
        simp only at h
        split at h
        · simp at h; exact ⟨h.1, h5.trans h.2.1⟩
        · cases h
      · cases h
    rw [hd, this.1, this.2]
  · exfalso
    have hno : ∀ r, (fwdStep conf ⟨phase, fw, k⟩ (.request rx now ok)).1 = some r → r.operation ≠ .Ack := by
      intro r hr
      rcases he with he | he <;> cases phase <;> simp [fwdStep, he] at hr <;> subst hr <;> simp [FwMessage.newNack]
    generalize (fwdStep conf ⟨phase, fw, k⟩ (.request rx now ok)).1 = reply at *
    unfold granted at h
    split at h
    · rw [if_neg (hno _ rfl)] at h; cases h
    · cases h

theorem fwdDecide_congr {conf : Config} {m m' : FwMessage} (ho : m.operation = m'.operation) (ha : m.getAddr = m'.getAddr)
    (hp : m.getPort = m'.getPort) : fwdDecide conf (.msg m) = fwdDecide conf (.msg m') := by
  simp only [fwdDecide, ho, ha, hp]

theorem operation_of_getAddr {m : FwMessage} {a : IpAddr} (h : m.getAddr = some a) : m.operation = .Open := by
  unfold FwMessage.getAddr at h
  split at h
  · assumption
  · cases h
  · cases h

theorem selection_inj {t t' : PortType} {port port' : UInt16} (h : selection t port = selection t' port') : t = t' ∧ port = port' := by
  cases t <;> cases t' <;> simp [selection] at h <;> simp [h]

/-- **C21** (renewal). If the table already has an entry for an address and port selection, a further request for it is
acknowledged, whatever `nft` would do; the ruleset is not touched, and the entry now expires one timeout after the
new request. -/
theorem C21_renewal (conf : Config) (n : NftNames) (hn : ChainOf conf n) (k0 : Kernel) (ok0 : Bool) (s0 : FwdState)
    (h0 : fwdStart conf k0 ok0 = some s0) (ops : List FwdOp) (hf : Fair conf n s0 ops)
    (hr : (fwdRun conf s0 ops).2.phase = .running) (addr : IpAddr) (t : PortType) (port : UInt16) (e : Nat)
    (hg : Grants.none.after conf.nftTimeout (fwdRun conf s0 ops).1 addr (selection t port) = some e)
    (m : FwMessage) (ha : m.getAddr = some addr) (hp : m.getPort = some (t, port)) (now : Nat) (nftOk : Bool) :
    let op := FwdOp.request (.msg m) now nftOk
    let r := fwdStep conf (fwdRun conf s0 ops).2 op
    r.1 = some FwMessage.newAck ∧ r.2.kernel = (fwdRun conf s0 ops).2.kernel ∧ r.2.phase = .running ∧
      (Grants.none.after conf.nftTimeout (fwdRun conf s0 (ops ++ [op])).1) addr (selection t port) = some (now + conf.nftTimeout) := by
  intro op r
  obtain ⟨_, n', hn', hi⟩ := fwdStart_inv h0
  obtain rfl := chainOf_unique hn hn'
  have h := fwdRun_inv hn hi ops hf
  -- the decision for this message is the one taken before
  have hdec : fwdDecide conf (.msg m) = .openPort addr (selection t port) := by
    rcases grants_origin hg with ⟨hx, _⟩ | ⟨h1, x, h2, to, hh, hx, _, _⟩
    · simp [Grants.none] at hx
    · have hmem : x ∈ (fwdRun conf s0 ops).1 := by rw [hh]; simp
      obtain ⟨s', hs'⟩ := mem_fwdRun hmem
      obtain ⟨xop, xr⟩ := x
      simp only at hs' hx
      have hform : ∃ m' now' ok', xop = .request (.msg m') now' ok' := by
        unfold granted at hx
        split at hx
        · exact ⟨_, _, _, rfl⟩
        · cases hx
      obtain ⟨m', now', ok', rfl⟩ := hform
      rw [hs'] at hx
      have hd' := ack_decide hx
      rw [← hd']
      obtain ⟨m'', t', port', heq, hop, ha', hp', hsel, _⟩ := fwdDecide_open hd'
      injection heq with heq
      subst heq
      obtain ⟨rfl, rfl⟩ := selection_inj hsel
      exact fwdDecide_congr (by rw [hop, operation_of_getAddr ha]) (by rw [ha, ha']) (by rw [hp, hp'])
  rw [fwdRun_append]
  simp only [fwdRun, after_append, Grants.after]
  have hr' : r = fwdStep conf (fwdRun conf s0 ops).2 op := rfl
  have hop : op = FwdOp.request (.msg m) now nftOk := rfl
  clear_value r
  generalize fwdRun conf s0 ops = q at *
  obtain ⟨hist, s⟩ := q
  obtain ⟨phase, fw, k⟩ := s
  simp only at hr
  subst hr
  simp only [FwdInv] at h hg
  obtain ⟨h1, h2, h3, h4⟩ := h
  obtain ⟨l, hl, _⟩ := (h4 _ _ _).1 hg
  rcases request_cases hn h1 h3.ok h2 (.msg m) now nftOk with ⟨r', reply, he, hnp, hgr, hnack⟩ | ⟨a, p, fw', k', hd, he, hgr, _, _, _, _, _, hk, _⟩
  · exfalso
    have hp' : conf.port.port ≠ (selection t port).port := by
      obtain ⟨_, t', port', heq, _, _, _, hsel, _, _, hne⟩ := fwdDecide_open hdec
      obtain ⟨rfl, rfl⟩ := selection_inj hsel
      rw [selection_port]; exact fun h => hne h.symm
    simp only [handleMessage, hdec] at he
    rcases openPort_cases hn h1 h3.ok h2 now addr (selection t port) nftOk hp' with ⟨fw', k', e1, _⟩ | ⟨_, hno, _⟩
    · rw [e1] at he
      simp only [Prod.mk.injEq] at he
      have := hnack _ he.2.1.symm
      simp [FwMessage.newAck] at this
    · exact hno ⟨l, hl⟩
  · rw [hdec] at hd
    injection hd with hd1 hd2
    subst hd1
    subst hd2
    have hkk := hk ⟨l, hl⟩
    subst hkk
    rw [hr', hop]
    simp only [fwdStep, he]
    refine ⟨trivial, trivial, trivial, ?_⟩
    rw [step_granted hgr]
    simp

/-- Number of rules of a port selection. -/
def ruleCount : LeasePort → Nat
  | .Tcp _ => 1
  | .Udp _ => 1
  | .TcpUdp _ => 2

/-- **C21** (no duplicates, nothing left over). The chain of a running daemon has one rule per enabled control port protocol and
one rule per protocol of each entry of the table, no more: however often an entry was renewed, and whatever has expired. -/
theorem C21_rule_count (conf : Config) (n : NftNames) (hn : ChainOf conf n) (k0 : Kernel) (ok0 : Bool) (s0 : FwdState)
    (h0 : fwdStart conf k0 ok0 = some s0) (ops : List FwdOp) (hf : Fair conf n s0 ops)
    (hr : (fwdRun conf s0 ops).2.phase = .running) :
    ∃ ids : List (IpAddr × LeasePort), ids.Nodup ∧
      (∀ a p, (a, p) ∈ ids ↔ (Grants.none.after conf.nftTimeout (fwdRun conf s0 ops).1 a p).isSome = true) ∧
      (ownRules n (fwdRun conf s0 ops).2.kernel).length =
        (if conf.port.tcp then 1 else 0) + (if conf.port.udp then 1 else 0) + (ids.map (fun id => ruleCount id.2)).sum := by
  obtain ⟨_, n', hn', hi⟩ := fwdStart_inv h0
  obtain rfl := chainOf_unique hn hn'
  have h := fwdRun_inv hn hi ops hf
  generalize fwdRun conf s0 ops = q at *
  obtain ⟨hist, s⟩ := q
  obtain ⟨h1, _, h3, h4⟩ := inv_running h hr
  refine ⟨s.fw.leases.map (·.1), h1.nodup, ?_, ?_⟩
  · intro a p
    rw [Option.isSome_iff_exists]
    constructor
    · intro hm
      obtain ⟨e, he, heq⟩ := List.mem_map.1 hm
      exact ⟨_, (h4 a p e.2.timeout).2 ⟨e.2, by rw [← heq]; exact he, rfl⟩⟩
    · rintro ⟨e, he⟩
      obtain ⟨l, hl, _⟩ := (h4 a p e).1 he
      exact List.mem_map.2 ⟨_, hl, rfl⟩
  · have hlen := h3.rules.length_eq
    have hkeys := h1.keys
    simp only at hkeys
    simp only [ownContents, List.length_map, wanted, List.length_append, ctrlContents] at hlen
    rw [hlen]
    congr 1
    · cases conf.port.tcp <;> cases conf.port.udp <;> rfl
    · clear hlen h3 h4 hr h1
      generalize s.fw.leases = ls at *
      induction ls with
      | nil => rfl
      | cons e rest ih =>
        simp only [List.flatMap_cons, List.length_append, List.map_cons, List.sum_cons,
          ih (fun e he => hkeys e (by simp [he]))]
        congr 1
        rw [hkeys e (by simp)]
        simp only [leaseContents, List.length_map]
        cases e.2.port <;> rfl

/-! ## C22 and C49 -/

/-- The operation is no termination. -/
def notTerminate : FwdOp → Prop
  | .terminate _ => False
  | _ => True

/-- Before it is told to terminate the daemon is running or about to stop. -/
theorem phase_before_terminate {conf : Config} {n : NftNames} (hn : ChainOf conf n) {s : FwdState} {g : Grants}
    (h : FwdInv conf n s g) (hp : s.phase = .running ∨ s.phase = .stopping) (ops : List FwdOp) (hf : Fair conf n s ops)
    (hnt : ∀ op ∈ ops, notTerminate op) :
    (fwdRun conf s ops).2.phase = .running ∨ (fwdRun conf s ops).2.phase = .stopping := by
  induction ops generalizing s g with
  | nil => exact hp
  | cons op rest ih =>
    refine ih (fwdStep_inv hn h op hf.1) ?_ hf.2 (fun o ho => hnt o (by simp [ho]))
    obtain ⟨phase, fw, k⟩ := s
    have hl : LeasesOk n fw.leases ∧ fw.shutdown = false ∧ KernelOk n k := by
      rcases hp with hp | hp <;> simp only at hp <;> subst hp <;> simp only [FwdInv] at h
      · exact ⟨h.1, h.2.1, h.2.2.1.ok⟩
      · exact h
    cases op with
    | foreign k' => exact hp
    | reorder l => exact hp
    | terminate ok => exact (hnt (.terminate ok) (by simp) : False).elim
    | request rx now ok =>
      have hreq : ∃ r reply fw' k', handleMessage conf fw k rx now ok = (r, reply, fw', k') ∧ r ≠ .panic := by
        rcases request_cases hn hl.1 hl.2.2 hl.2.1 rx now ok with ⟨r, reply, he, hnp, _, _⟩ | ⟨_, _, fw', k', _, he, _⟩
        · exact ⟨r, reply, _, _, he, hnp⟩
        · exact ⟨_, _, _, _, he, by simp⟩
      obtain ⟨r, reply, fw', k', he, hnp⟩ := hreq
      rcases hp with hp | hp <;> simp only at hp <;> subst hp <;> simp only [fwdStep, he] <;>
        cases r <;> first | exact absurd rfl hnp | simp
    | maintain now env =>
      rcases hp with hp | hp <;> simp only at hp <;> subst hp
      · simp only [FwdInv] at h
        obtain ⟨r, k', he, hr⟩ := maintain_cases hn h.1 h.2.2.1 h.2.1 now env hf.1.1 hf.1.2
        simp only [fwdStep, he]
        rcases hr with ⟨rfl, _⟩ | ⟨rfl, _⟩
        · exact .inr rfl
        · exact .inl rfl
      · exact .inr rfl

/-- After the shutdown nothing is added to the chain any more. -/
theorem stopped_keeps_own {conf : Config} {n : NftNames} {s : FwdState} (hp : s.phase = .stopped ∨ s.phase = .crashed)
    (hd : s.fw.shutdown = true) (ops : List FwdOp) (hf : Fair conf n s ops) :
    ownRules n (fwdRun conf s ops).2.kernel = ownRules n s.kernel := by
  induction ops generalizing s with
  | nil => rfl
  | cons op rest ih =>
    have hstep : ((fwdStep conf s op).2.phase = .stopped ∨ (fwdStep conf s op).2.phase = .crashed) ∧
        (fwdStep conf s op).2.fw.shutdown = true ∧ ownRules n (fwdStep conf s op).2.kernel = ownRules n s.kernel := by
      obtain ⟨phase, fw, k⟩ := s
      simp only at hd hp
      cases op with
      | foreign k' => exact ⟨hp, hd, hf.1.own⟩
      | reorder l => exact ⟨hp, hd, rfl⟩
      | terminate ok => rcases hp with rfl | rfl <;> exact ⟨by simp [fwdStep], hd, rfl⟩
      | request rx now ok =>
        rcases hp with rfl | rfl <;> exact ⟨by simp [fwdStep], hd, rfl⟩
      | maintain now env =>
        rcases hp with rfl | rfl <;> exact ⟨by simp [fwdStep], hd, rfl⟩
    exact (ih hstep.1 hstep.2.1 hf.2).trans hstep.2.2

/-- **C22**. When the daemon is terminated and its last nft run succeeds, the chain is empty, whatever happened before (including
failed maintenance), and stays empty. -/
theorem C22_shutdown_closes_everything (conf : Config) (n : NftNames) (hn : ChainOf conf n) (k0 : Kernel) (ok0 : Bool) (s0 : FwdState)
    (h0 : fwdStart conf k0 ok0 = some s0) (ops later : List FwdOp) (hnt : ∀ op ∈ ops, notTerminate op)
    (hf : Fair conf n s0 (ops ++ .terminate true :: later)) :
    ownRules n (fwdRun conf s0 (ops ++ .terminate true :: later)).2.kernel = [] := by
  obtain ⟨hp0, n', hn', hi⟩ := fwdStart_inv h0
  obtain rfl := chainOf_unique hn hn'
  obtain ⟨hf1, hf2⟩ := fair_append hf
  have hp := phase_before_terminate hn hi (.inl hp0) ops hf1 hnt
  have h := fwdRun_inv hn hi ops hf1
  rw [fwdRun_append]
  generalize fwdRun conf s0 ops = q at *
  obtain ⟨hist, s⟩ := q
  obtain ⟨phase, fw, k⟩ := s
  simp only [fwdRun]
  have hd : fw.shutdown = false := by
    rcases hp with hp | hp <;> simp only at hp <;> subst hp <;> simp only [FwdInv] at h <;> exact h.2.1
  have hstep : (fwdStep conf ⟨phase, fw, k⟩ (.terminate true)).2 = ⟨.stopped, { leases := [], shutdown := true }, flushed n k⟩ := by
    rcases hp with hp | hp <;> simp only at hp <;> subst hp <;>
      simp only [fwdStep, NftFirewall.doShutdown, hd, if_false, Bool.false_eq_true,
          fullRebuild_shutdown hn (fw := { leases := [], shutdown := true }) rfl, if_true]
  have hf3 := hf2.2
  rw [hstep] at hf3 ⊢
  rw [stopped_keeps_own (.inl rfl) rfl later hf3]
  exact flushed_own n k

theorem genAddLeaseCmd_not_panic (conf : Config) (a : Option IpAddr) (p : SinglePort) : genAddLeaseCmd conf a p ≠ .panic := by
  unfold genAddLeaseCmd
  cases hg : NftNames.get conf with
  | panic => exact absurd hg (names_get_not_panic _)
  | err => simp
  | ok n =>
    cases a with
    | none => simp
    | some a =>
      cases hs : statementMatchSaddr n.family a with
      | panic => exact absurd hs (statementMatchSaddr_not_panic _ _)
      | err => simp [hs]
      | ok s => simp [hs]

theorem applyBatch_not_panic (k : Kernel) (cs : List NfCmd) (ok : Bool) : (applyBatch k cs ok).1 ≠ .panic := by
  unfold applyBatch
  split
  · split <;> simp
  · simp

theorem genAddLeaseCmds_not_panic (conf : Config) (l : Lease) : genAddLeaseCmds conf l ≠ .panic :=
  collect_not_panic fun _ _ => genAddLeaseCmd_not_panic _ _ _

theorem rebuildCmds_not_panic (conf : Config) (fw : NftFirewall) : rebuildCmds conf fw ≠ .panic := by
  unfold rebuildCmds
  cases hg : NftNames.get conf with
  | panic => exact absurd hg (names_get_not_panic _)
  | err => simp
  | ok n =>
    rw [genCtrlCmds_ok (names_get_iff.1 hg)]
    simp only [R.bind_ok]
    split
    · cases hc : collect (fun e : LeaseId × Lease => genAddLeaseCmds conf e.2) fw.leases with
      | panic => exact absurd hc (collect_not_panic fun _ _ => genAddLeaseCmds_not_panic _ _)
      | err => simp
      | ok l => simp
    · simp

theorem fullRebuild_not_panic (conf : Config) (fw : NftFirewall) (k : Kernel) (ok : Bool) : (fullRebuild conf fw k ok).1 ≠ .panic := by
  unfold fullRebuild
  cases h : rebuildCmds conf fw with
  | panic => exact absurd h (rebuildCmds_not_panic _ _)
  | err => simp
  | ok cs => exact applyBatch_not_panic _ _ _

theorem addLease_not_panic (conf : Config) (l : Lease) (k : Kernel) (ok : Bool) : (addLease conf l k ok).1 ≠ .panic := by
  unfold addLease
  cases h : genAddLeaseCmds conf l with
  | panic => exact absurd h (genAddLeaseCmds_not_panic _ _)
  | err => simp
  | ok cs => exact applyBatch_not_panic _ _ _

theorem openPort_not_panic {conf : Config} {fw : NftFirewall} (hd : fw.shutdown = false) (k : Kernel) (now : Nat) (a : IpAddr)
    {p : LeasePort} (hp : conf.port.port ≠ p.port) (ok : Bool) :
    (fw.openPort conf k now a p ok).1 ≠ .panic ∧ (fw.openPort conf k now a p ok).2.1.shutdown = false := by
  unfold NftFirewall.openPort
  rw [if_neg (by simp [hd])]
  simp only
  split
  · exact ⟨by simp, hd⟩
  · cases hl : Lease.new conf now a p with
    | panic =>
      exfalso
      unfold Lease.new at hl
      simp [rassert, hp] at hl
    | err => exact ⟨by simp, hd⟩
    | ok l =>
      have := addLease_not_panic conf l k ok
      simp only
      cases ha : addLease conf l k ok with
      | mk r k' =>
        rw [ha] at this
        cases r with
        | panic => exact absurd rfl this
        | err => exact ⟨by simp, hd⟩
        | ok u => exact ⟨by simp, hd⟩

theorem maintain_not_panic {conf : Config} {fw : NftFirewall} (hd : fw.shutdown = false) (k : Kernel) (now : Nat) (env : NftEnv) :
    (fw.maintain conf k now env).1 ≠ .panic ∧ (fw.maintain conf k now env).2.1.shutdown = false := by
  unfold NftFirewall.maintain
  rw [if_neg (by simp [hd])]
  simp only
  split
  · exact ⟨by simp, hd⟩
  · have hr : (removeLeases conf (pruneAllLeaseTimeouts now fw.leases).2 k env).1 ≠ .panic := by
      unfold removeLeases
      split
      · simp
      · split
        · simp
        · simp only
          cases hc : collect (genDeleteLeaseCmds conf k.rules) (pruneAllLeaseTimeouts now fw.leases).2 with
          | panic => exact absurd hc (collect_not_panic fun _ _ => genDelete_not_panic _ _ _)
          | err => simp
          | ok cs => exact applyBatch_not_panic _ _ _
    generalize removeLeases conf (pruneAllLeaseTimeouts now fw.leases).2 k env = x at *
    obtain ⟨r, k'⟩ := x
    cases r with
    | panic => exact absurd rfl hr
    | ok u => exact ⟨by simp, hd⟩
    | err => exact ⟨fullRebuild_not_panic _ _ _ _, hd⟩

/-- Not crashed, and shut down exactly if stopped. -/
def NotCrashed (s : FwdState) : Prop :=
  match s.phase with
  | .running | .stopping => s.fw.shutdown = false
  | .stopped => True
  | .crashed => False

theorem notCrashed_run (conf : Config) (ops : List FwdOp) : ∀ s, NotCrashed s → NotCrashed (fwdRun conf s ops).2 := by
  induction ops with
  | nil => exact fun s h => h
  | cons op rest ih =>
    intro s h
    refine ih _ ?_
    obtain ⟨phase, fw, k⟩ := s
    cases op with
    | foreign k' => exact h
    | reorder l => cases phase <;> exact h
    | terminate ok =>
      have key : fw.shutdown = false → NotCrashed (match fw.doShutdown conf k ok with
          | (.panic, fw, k) => (⟨.crashed, fw, k⟩ : FwdState)
          | (_, fw, k) => ⟨.stopped, fw, k⟩) := by
        intro hd
        simp only [NftFirewall.doShutdown, hd, if_false, Bool.false_eq_true]
        have := fullRebuild_not_panic conf { leases := [], shutdown := true } k ok
        generalize fullRebuild conf { leases := [], shutdown := true } k ok = x at *
        obtain ⟨r, k'⟩ := x
        cases r with
        | panic => exact absurd rfl this
        | err => trivial
        | ok u => trivial
      cases phase with
      | stopped => trivial
      | crashed => exact h
      | running => have := key h; simp only [fwdStep]; split <;> simp_all
      | stopping => have := key h; simp only [fwdStep]; split <;> simp_all
    | request rx now ok =>
      have key : fw.shutdown = false → (handleMessage conf fw k rx now ok).1 ≠ .panic ∧
          (handleMessage conf fw k rx now ok).2.2.1.shutdown = false := by
        intro hd
        rcases handleMessage_cases conf fw k rx now ok with ⟨a, p, hdec⟩ | he | he
        · obtain ⟨_, t, port, _, _, _, _, rfl, _, _, hne⟩ := fwdDecide_open hdec
          have := openPort_not_panic hd k now a (p := selection t port) (conf := conf)
            (by rw [selection_port]; exact fun h => hne h.symm) ok
          simp only [handleMessage, hdec]
          generalize fw.openPort conf k now a (selection t port) ok = x at *
          obtain ⟨r, fw', k'⟩ := x
          cases r with
          | panic => exact absurd rfl this.1
          | err => exact ⟨by simp, this.2⟩
          | ok u => exact ⟨by simp, this.2⟩
        · rw [he]; exact ⟨by simp, hd⟩
        · rw [he]; exact ⟨by simp, hd⟩
      cases phase with
      | stopped => trivial
      | crashed => exact h
      | _ =>
        have := key h
        simp only [fwdStep]
        generalize handleMessage conf fw k rx now ok = x at *
        obtain ⟨r, reply, fw', k'⟩ := x
        cases r with
        | panic => exact absurd rfl this.1
        | err => exact this.2
        | ok u => exact this.2
    | maintain now env =>
      cases phase with
      | stopped => trivial
      | crashed => exact h
      | stopping => exact h
      | running =>
        have := maintain_not_panic (conf := conf) h k now env
        simp only [fwdStep]
        simp only at this
        generalize fw.maintain conf k now env = x at *
        obtain ⟨r, fw', k'⟩ := x
        cases r with
        | panic => exact absurd rfl this.1
        | err => exact this.2
        | ok u => exact this.2

/-- **C49**. No request, no failure of nft, no foreign activity (even in the chain of letmein) and no order of these and of
termination makes letmeinfwd reach a failing assertion (neither the ones on `shutdown` nor the one against a lease of the
control port). -/
theorem C49_no_crash (conf : Config) (k0 : Kernel) (ok0 : Bool) (s0 : FwdState)
    (h0 : fwdStart conf k0 ok0 = some s0) (ops : List FwdOp) : (fwdRun conf s0 ops).2.phase ≠ .crashed := by
  have hstart : NotCrashed s0 := by
    obtain ⟨hp, n, _, hi⟩ := fwdStart_inv h0
    unfold NotCrashed
    rw [hp]
    exact (inv_running hi hp).2.1
  intro hc
  have := notCrashed_run conf ops s0 hstart
  unfold NotCrashed at this
  rw [hc] at this
  exact this

/-- **C49** (start). Start-up does not panic either, whatever the configuration. -/
theorem C49_start_no_panic (conf : Config) (k : Kernel) (ok : Bool) : (NftFirewall.new conf k ok).1 ≠ .panic := by
  have := fullRebuild_not_panic conf { leases := [], shutdown := false } k ok
  unfold NftFirewall.new
  simp only
  generalize fullRebuild conf { leases := [], shutdown := false } k ok = x at *
  obtain ⟨r, k'⟩ := x
  cases r with
  | panic => exact absurd rfl this
  | err => simp
  | ok u => simp

/-! ## C23 -/

/-- The command concerns the configured chain only. -/
def cmdOwn (n : NftNames) : NfCmd → Prop
  | .add r => r.family = n.family ∧ r.table = n.table ∧ r.chain = n.chainInput
  | .delete f t c _ => f = n.family ∧ t = n.table ∧ c = n.chainInput
  | .flush f t c => f = n.family ∧ t = n.table ∧ c = n.chainInput

theorem applyCmd_foreign {n : NftNames} {k k' : Kernel} {c : NfCmd} (hc : cmdOwn n c) (h : applyCmd k c = some k') :
    foreignRules n k' = foreignRules n k := by
  cases c with
  | add r =>
    obtain ⟨h1, h2, h3⟩ := hc
    simp only [applyCmd, Option.some.injEq] at h
    subst h
    simp [foreignRules_eq, List.filter_append, KRule.inChain, h1, h2, h3]
  | delete f t c hd =>
    obtain ⟨rfl, rfl, rfl⟩ := hc
    simp only [applyCmd] at h
    split at h
    · injection h with h
      subst h
      simp only [foreignRules_eq, List.filter_filter]
      apply List.filter_congr
      intro x _
      cases x.inChain n.family n.table n.chainInput <;> simp
    · cases h
  | flush f t c =>
    obtain ⟨rfl, rfl, rfl⟩ := hc
    simp only [applyCmd, Option.some.injEq] at h
    subst h
    simp [foreignRules_eq, List.filter_filter]

theorem applyCmds_foreign {n : NftNames} {k k' : Kernel} {cs : List NfCmd} (hc : ∀ c ∈ cs, cmdOwn n c) (h : applyCmds k cs = some k') :
    foreignRules n k' = foreignRules n k := by
  induction cs generalizing k with
  | nil => simp [applyCmds] at h; rw [h]
  | cons c cs ih =>
    rw [applyCmds] at h
    split at h
    · rename_i k1 h1
      rw [ih (fun c hc' => hc c (by simp [hc'])) h, applyCmd_foreign (hc c (by simp)) h1]
    · cases h

theorem applyBatch_foreign {n : NftNames} {k : Kernel} {cs : List NfCmd} (hc : ∀ c ∈ cs, cmdOwn n c) (ok : Bool) :
    foreignRules n (applyBatch k cs ok).2 = foreignRules n k := by
  rcases applyBatch_cases k cs ok with ⟨k', h1, _, h2⟩ | h2
  · rw [h2]; exact applyCmds_foreign hc h1
  · rw [h2]

theorem mem_collect {α β : Type} {f : α → R β} {l : List α} {r : List β} (h : collect f l = .ok r) {b : β} (hb : b ∈ r) :
    ∃ a ∈ l, f a = .ok b := by
  have := collect_inv h
  have hm : R.ok b ∈ r.map R.ok := List.mem_map_of_mem hb
  rw [← this] at hm
  obtain ⟨a, ha, he⟩ := List.mem_map.1 hm
  exact ⟨a, ha, he⟩

theorem genAddLeaseCmd_own {conf : Config} {n : NftNames} (hn : ChainOf conf n) {a : Option IpAddr} {p : SinglePort} {c : NfCmd}
    (h : genAddLeaseCmd conf a p = .ok c) : cmdOwn n c := by
  cases a with
  | none => rw [genAddLeaseCmd_none hn] at h; injection h with h; subst h; exact ⟨rfl, rfl, rfl⟩
  | some a =>
    by_cases hs : Supported n.family a
    · rw [genAddLeaseCmd_some hn hs] at h; injection h with h; subst h; exact ⟨rfl, rfl, rfl⟩
    · rw [genAddLeaseCmd_unsupported hn hs] at h; cases h

theorem genAddLeaseCmds_own {conf : Config} {n : NftNames} (hn : ChainOf conf n) {l : Lease} {cs : List NfCmd}
    (h : genAddLeaseCmds conf l = .ok cs) : ∀ c ∈ cs, cmdOwn n c := by
  intro c hc
  obtain ⟨p, _, hp⟩ := mem_collect h hc
  exact genAddLeaseCmd_own hn hp

theorem rebuildCmds_own {conf : Config} {n : NftNames} (hn : ChainOf conf n) {fw : NftFirewall} {cs : List NfCmd}
    (h : rebuildCmds conf fw = .ok cs) : ∀ c ∈ cs, cmdOwn n c := by
  unfold rebuildCmds at h
  rw [names_get_iff.2 hn, genCtrlCmds_ok hn] at h
  simp only [R.bind_ok] at h
  intro c hc
  split at h
  · cases hl : collect (fun e : LeaseId × Lease => genAddLeaseCmds conf e.2) fw.leases with
    | ok ls =>
      rw [hl] at h
      simp only [R.bind_ok, R.ok.injEq] at h
      subst h
      rcases List.mem_cons.1 hc with rfl | hc
      · exact ⟨rfl, rfl, rfl⟩
      · rcases List.mem_append.1 hc with hc | hc
        · obtain ⟨x, _, rfl⟩ := List.mem_map.1 hc
          exact ⟨rfl, rfl, rfl⟩
        · obtain ⟨cs', hcs, hc⟩ := List.mem_flatten.1 hc
          obtain ⟨e, _, he⟩ := mem_collect hl hcs
          exact genAddLeaseCmds_own hn he c hc
    | err => rw [hl] at h; simp at h
    | panic => rw [hl] at h; simp at h
  · injection h with h
    subst h
    simp at hc
    subst hc
    exact ⟨rfl, rfl, rfl⟩

theorem fullRebuild_foreign {conf : Config} {n : NftNames} (hn : ChainOf conf n) (fw : NftFirewall) (k : Kernel) (ok : Bool) :
    foreignRules n (fullRebuild conf fw k ok).2 = foreignRules n k := by
  unfold fullRebuild
  cases h : rebuildCmds conf fw with
  | ok cs => exact applyBatch_foreign (rebuildCmds_own hn h) ok
  | err => rfl
  | panic => rfl

theorem genDelete_own {conf : Config} {n : NftNames} (hn : ChainOf conf n) {rules : List KRule} {l : Lease} {cs : List NfCmd}
    (h : genDeleteLeaseCmds conf rules l = .ok cs) : ∀ c ∈ cs, cmdOwn n c := by
  unfold genDeleteLeaseCmds at h
  rw [names_get_iff.2 hn, R.bind_ok] at h
  intro c hc
  obtain ⟨p, _, hp⟩ := mem_collect h hc
  cases hf : findHandle rules n l.addr p with
  | ok hd =>
    rw [hf] at hp
    simp only [R.bind_ok, R.ok.injEq] at hp
    subst hp
    exact ⟨rfl, rfl, rfl⟩
  | err => rw [hf] at hp; simp at hp
  | panic => rw [hf] at hp; simp at hp

theorem openPort_foreign {conf : Config} {n : NftNames} (hn : ChainOf conf n) (fw : NftFirewall) (k : Kernel) (now : Nat) (a : IpAddr)
    (p : LeasePort) (ok : Bool) : foreignRules n (fw.openPort conf k now a p ok).2.2 = foreignRules n k := by
  unfold NftFirewall.openPort
  split
  · rfl
  · simp only
    split
    · rfl
    · cases Lease.new conf now a p with
      | err => rfl
      | panic => rfl
      | ok lease =>
        have : foreignRules n (addLease conf lease k ok).2 = foreignRules n k := by
          unfold addLease
          cases h : genAddLeaseCmds conf lease with
          | ok cs => exact applyBatch_foreign (genAddLeaseCmds_own hn h) ok
          | err => rfl
          | panic => rfl
        simp only
        split <;> simp_all

/-- What other programs do during an operation preserves `P`, a statement about the rules outside the chain. -/
def OthersPreserve (n : NftNames) (P : List KRule → Prop) : FwdOp → Prop
  | .foreign k => P (foreignRules n k)
  | .maintain _ env => (∀ k, P (foreignRules n k) → P (foreignRules n (env.afterList k))) ∧
      (∀ k, P (foreignRules n k) → P (foreignRules n (env.beforeRebuild k)))
  | _ => True

/-- **C23**. Whatever statement `P` about the rules outside the configured chain (their content and order) is not
invalidated by other programs is not invalidated by an operation of letmeinfwd: it changes nothing there. In any state, with any
ruleset; no assumption is made about handles or comments. -/
theorem C23_foreign_rules_untouched (conf : Config) (n : NftNames) (hn : ChainOf conf n) (s : FwdState) (op : FwdOp)
    (P : List KRule → Prop) (h : P (foreignRules n s.kernel)) (ho : OthersPreserve n P op) :
    P (foreignRules n (fwdStep conf s op).2.kernel) := by
  obtain ⟨phase, fw, k⟩ := s
  cases op with
  | foreign k' => exact ho
  | reorder l => exact h
  | terminate ok =>
    have : foreignRules n (fw.doShutdown conf k ok).2.2 = foreignRules n k := by
      unfold NftFirewall.doShutdown
      split
      · rfl
      · exact fullRebuild_foreign hn _ k ok
    cases phase <;> simp only [fwdStep] <;> try exact h
    all_goals
      generalize fw.doShutdown conf k ok = x at *
      obtain ⟨r, fw', k'⟩ := x
      cases r <;> simp only at this ⊢ <;> rw [this] <;> exact h
  | request rx now ok =>
    have : foreignRules n (handleMessage conf fw k rx now ok).2.2.2 = foreignRules n k := by
      unfold handleMessage
      split
      · rfl
      · rfl
      · rename_i a p _
        have := openPort_foreign hn fw k now a p ok
        split <;> simp_all
    cases phase <;> simp only [fwdStep] <;> try exact h
    all_goals
      generalize handleMessage conf fw k rx now ok = x at *
      obtain ⟨r, reply, fw', k'⟩ := x
      cases r <;> simp only at this ⊢ <;> rw [this] <;> exact h
  | maintain now env =>
    have : P (foreignRules n (fw.maintain conf k now env).2.2) := by
      unfold NftFirewall.maintain
      split
      · exact h
      · simp only
        split
        · exact h
        · have hrem : P (foreignRules n (removeLeases conf (pruneAllLeaseTimeouts now fw.leases).2 k env).2) := by
            unfold removeLeases
            split
            · exact h
            · split
              · exact h
              · simp only
                cases hc : collect (genDeleteLeaseCmds conf k.rules) (pruneAllLeaseTimeouts now fw.leases).2 with
                | ok cs =>
                  simp only
                  rw [applyBatch_foreign]
                  · exact ho.1 k h
                  · intro c hcm
                    obtain ⟨cs', hcs, hcm⟩ := List.mem_flatten.1 hcm
                    obtain ⟨l, _, hl⟩ := mem_collect hc hcs
                    exact genDelete_own hn hl c hcm
                | err => exact ho.1 k h
                | panic => exact ho.1 k h
          generalize removeLeases conf (pruneAllLeaseTimeouts now fw.leases).2 k env = x at *
          obtain ⟨r, k'⟩ := x
          cases r with
          | ok u => exact hrem
          | panic => exact hrem
          | err =>
            simp only
            rw [fullRebuild_foreign hn]
            exact ho.2 k' hrem
    cases phase <;> simp only [fwdStep] <;> try exact h
    all_goals
      generalize fw.maintain conf k now env = x at *
      obtain ⟨r, fw', k'⟩ := x
      cases r <;> exact this

/-- **C23** (start). Start-up leaves the rules outside the chain alone, too. -/
theorem C23_start_untouched (conf : Config) (n : NftNames) (hn : ChainOf conf n) (k0 : Kernel) (ok0 : Bool) (s0 : FwdState)
    (h0 : fwdStart conf k0 ok0 = some s0) : foreignRules n s0.kernel = foreignRules n k0 := by
  have := fullRebuild_foreign hn { leases := [], shutdown := false } k0 ok0
  unfold fwdStart NftFirewall.new at h0
  simp only at h0
  cases hx : fullRebuild conf { leases := [], shutdown := false } k0 ok0 with
  | mk r k' =>
    rw [hx] at h0 this
    cases r with
    | ok u => simp only [Option.some.injEq] at h0; subst h0; exact this
    | err => simp at h0
    | panic => simp at h0

/-! ## C24 -/

/-- Can a chain of this family match the address at all? -/
def matchable (f : NfFamily) (a : IpAddr) : Bool := familySees f (hostOf a)

theorem supported_iff (f : NfFamily) (a : IpAddr) : Supported f a ↔ matchable f a = true := by
  unfold Supported matchable statementMatchSaddr
  cases a with
  | v4 a => cases f <;> simp [hostOf, familySees]
  | v6 a =>
    rw [hostOf_v6]
    cases h : toIpv4Mapped a <;> cases f <;> simp [h, familySees]

/-- The rules a batch of commands adds. -/
def addedExprs (cmds : List NfCmd) : List (List Stmt) :=
  cmds.filterMap (fun c => match c with | .add r => some r.expr | _ => none)

/-- **C24**. The commands generated for a lease add rules to the configured chain that together accept exactly the packets from the
lease's host to its port and protocols; if the chain cannot match the host's address family no commands
are generated. -/
theorem C24_lease_rules (conf : Config) (n : NftNames) (hn : ChainOf conf n) (l : Lease) :
    (matchable n.family l.addr = true → ∃ cmds, genAddLeaseCmds conf l = .ok cmds ∧
      (∀ c ∈ cmds, ∃ r, c = .add r ∧ r.family = n.family ∧ r.table = n.table ∧ r.chain = n.chainInput) ∧
      ∀ pkt, (familySees n.family pkt.src && (addedExprs cmds).any (ruleAccepts pkt)) = true ↔ covers l.addr l.port pkt) ∧
    (matchable n.family l.addr = false → genAddLeaseCmds conf l = .err) := by
  constructor
  · intro hm
    have hs := (supported_iff n.family l.addr).2 hm
    refine ⟨_, genAddLeaseCmds_ok hn hs, ?_, ?_⟩
    · intro c hc
      obtain ⟨x, _, rfl⟩ := List.mem_map.1 hc
      exact ⟨_, rfl, rfl, rfl, rfl⟩
    · intro pkt
      have : addedExprs ((leaseContents n.family l).map (addCmd n)) = (leaseContents n.family l).map (·.2) := by
        simp [addedExprs, addCmd, List.filterMap_map, Function.comp_def]
      rw [this, List.any_map]
      exact leaseContents_accept hs pkt
  · intro hm
    exact genAddLeaseCmds_err hn (fun hs => by rw [(supported_iff _ _).1 hs] at hm; cases hm)

/-! ## C18 and C25 -/

theorem newOpen_getAddr (addr : IpAddr) (pt : PortType) (port : UInt16) : (FwMessage.newOpen addr pt port).getAddr = some addr := by
  cases addr with
  | v4 o =>
    simp only [FwMessage.getAddr, FwMessage.newOpen, addrToOctets, octetsToAddr]
    congr 2
  | v6 o => rfl

theorem granted_inv {op : FwdOp} {r : Option FwMessage} {a : IpAddr} {p : LeasePort} {to : Nat} (h : granted op r = some (a, p, to)) :
    ∃ m t port ok, op = .request (.msg m) to ok ∧ m.getAddr = some a ∧ m.getPort = some (t, port) ∧ p = selection t port := by
  unfold granted at h
  split at h
  · split at h
    · split at h
      · rename_i ha hp
        simp only [Option.some.injEq, Prod.mk.injEq] at h
        obtain ⟨rfl, rfl, rfl⟩ := h
        exact ⟨_, _, _, _, rfl, ha, hp, rfl⟩
      · cases h
    · cases h
  · cases h

/-- The message of the operation, if it is a request, was sent by some session of letmeind with this configuration. -/
def FromLetmeind (conf : Config) (op : FwdOp) : Prop :=
  ∀ m now ok, op = .request (.msg m) now ok →
    ∃ mac peer tr o, (session mac conf peer).Trace tr o ∧ ∃ e ∈ tr, fwReq e = some m

theorem mem_of_assocGet {κ ν : Type} [DecidableEq κ] {l : List (κ × ν)} {k : κ} {v : ν} (h : assocGet l k = some v) : (k, v) ∈ l := by
  induction l with
  | nil => cases h
  | cons e l ih =>
    obtain ⟨k', v'⟩ := e
    rw [assocGet] at h
    split at h
    · rename_i hk
      injection h with h
      simp [hk, h]
    · simp [ih h]

theorem opens_selection {pt : PortType} {res : Resource} (h1 : opensTcp pt = res.tcp) (h2 : opensUdp pt = res.udp) {pkt : Packet}
    (h : portCovers (selection pt res.port) pkt) :
    pkt.dport = res.port ∧ ((pkt.proto = .tcp ∧ res.tcp = true) ∨ (pkt.proto = .udp ∧ res.udp = true)) := by
  cases pt <;> simp [opensTcp, opensUdp] at h1 h2 <;> simp [selection, portCovers] at h <;> simp [h1, h2, h]
  cases pkt.proto <;> simp

/-- **C18** (partial: for requests that letmeind makes; letmeinfwd itself does not check the protocol, see `C18_fails`). If all
requests come from letmeind sessions with the same configuration, then an accepted packet goes to the control port
or to the port of a configured resource by a protocol configured for that resource. -/
theorem C18_configured_protocol_partial (conf : Config) (n : NftNames) (hn : ChainOf conf n) (k0 : Kernel) (ok0 : Bool) (s0 : FwdState)
    (h0 : fwdStart conf k0 ok0 = some s0) (ops : List FwdOp) (hf : Fair conf n s0 ops)
    (hr : (fwdRun conf s0 ops).2.phase = .running) (hl : ∀ op ∈ ops, FromLetmeind conf op) (pkt : Packet)
    (hacc : chainAccepts n (fwdRun conf s0 ops).2.kernel pkt = true) :
    toControlPort conf pkt ∨ ∃ id res, (id, res) ∈ conf.resources ∧ pkt.dport = res.port ∧
      ((pkt.proto = .tcp ∧ res.tcp = true) ∨ (pkt.proto = .udp ∧ res.udp = true)) := by
  rcases (C19_chain_equals_grants conf n hn k0 ok0 s0 h0 ops hf hr pkt).1 hacc with ⟨_, h⟩ | ⟨addr, p, e, hg, hc⟩
  · exact .inl h
  · right
    rcases grants_origin hg with ⟨h, _⟩ | ⟨h1, x, h2, to, hh, hx, _, _⟩
    · simp [Grants.none] at h
    · obtain ⟨m, t, port, ok, hop, ha, hp, rfl⟩ := granted_inv hx
      have hmem : x.1 ∈ ops := by
        rw [← fwdRun_ops conf s0 ops, hh]
        simp
      obtain ⟨mac, peer, tr, o, htr, ev, hev, hreq⟩ := hl _ hmem m to ok hop
      obtain ⟨pre, post, rfl⟩ := List.append_of_mem hev
      obtain ⟨knock, _, _, _, _, res, pt, hfa, rfl, ht, hu, _, _⟩ := C08_request_content mac conf peer _ o htr pre ev post rfl m hreq
      refine ⟨knock.resource, res, mem_of_assocGet hfa.granted.configured, ?_⟩
      have hp' : (FwMessage.newOpen peer pt res.port).getPort = some (pt, res.port) := rfl
      rw [hp'] at hp
      injection hp with hp
      injection hp with hp1 hp2
      subst hp1
      subst hp2
      exact opens_selection ht hu hc.2

/-- **C25** (partial: for the plain spellings). No table entry, hence no rule, ever exists for the all-zeros or all-ones
IPv4 or IPv6 address. The full statement, about all spellings, fails: `C25_fails`. -/
theorem C25_special_addresses_partial (conf : Config) (s0 : FwdState) (ops : List FwdOp) (addr : IpAddr) (p : LeasePort) (e : Nat)
    (hg : Grants.none.after conf.nftTimeout (fwdRun conf s0 ops).1 addr p = some e) :
    addr ≠ .v4 (Arr.replicate 4 0) ∧ addr ≠ .v4 (Arr.replicate 4 0xFF) ∧
      addr ≠ .v6 (Arr.replicate 16 0) ∧ addr ≠ .v6 (Arr.replicate 16 0xFF) := by
  rcases grants_origin hg with ⟨h, _⟩ | ⟨h1, x, h2, to, hh, hx, _, _⟩
  · simp [Grants.none] at h
  · obtain ⟨s', hs'⟩ := mem_fwdRun (x := x) (conf := conf) (s := s0) (ops := ops) (by rw [hh]; simp)
    obtain ⟨m, t, port, ok, hop, _⟩ := granted_inv hx
    rw [hs', hop] at hx
    obtain ⟨_, _, _, _, _, _, _, _, hac, _⟩ := fwdDecide_open (ack_decide hx)
    refine ⟨?_, ?_, ?_, ?_⟩ <;> intro ha <;> subst ha <;> simp [addrCheck] at hac

/-! ## Concrete histories -/

/-- A server configuration with a chain. -/
def fwConf : Config := { exampleConf with nftFamily := "inet".toList, nftTable := "filter".toList, nftChainInput := "LETMEIN-INPUT".toList }

/-- Its chain. -/
def fwNames : NftNames := { family := .INet, table := "filter".toList, chainInput := "LETMEIN-INPUT".toList }

/-- A ruleset with a rule of another program, in another chain but with a comment like letmein's, and a leftover rule in the
letmein chain. -/
def fwKernel : Kernel :=
  { rules := [{ family := .INet, table := "filter".toList, chain := "INPUT".toList, handle := 3, expr := [.accept],
                comment := some (genRuleComment (some examplePeer) (.Tcp 22)) },
              { family := .INet, table := "filter".toList, chain := "LETMEIN-INPUT".toList, handle := 4, expr := [.accept],
                comment := none }], gen := 9 }

/-- Everything works and nobody interferes. -/
def calmEnv : NftEnv := { listOk := true, deleteOk := true, rebuildOk := true, afterList := id, beforeRebuild := id }

/-- The daemon after its start. -/
def fwStarted : FwdState := (fwdStart fwConf fwKernel true).getD ⟨.crashed, ⟨[], false⟩, ⟨[], 0⟩⟩

example : ChainOf fwConf fwNames := ⟨by decide, rfl, rfl, by decide, by decide⟩
theorem fwStarted_ok : fwdStart fwConf fwKernel true = some fwStarted := by
  have : (fwdStart fwConf fwKernel true).isSome = true := by decide +kernel
  obtain ⟨s, hs⟩ := Option.isSome_iff_exists.1 this
  simp [fwStarted, hs]

/-- One second in nanoseconds. -/
def second : Nat := 1000000000

/-- Two clients knock, one renews, maintenance runs (once with failing deletion), one lease expires. -/
def fwHistory : List FwdOp :=
  [.maintain 0 calmEnv,
   .request (.msg (FwMessage.newOpen examplePeer .Tcp 22)) (1 * second) true,
   .request (.msg (FwMessage.newOpen (.v4 ⟨[192, 0, 2, 8], rfl⟩) .TcpUdp 443)) (2 * second) true,
   .request (.msg (FwMessage.newOpen (.v4 ⟨[192, 0, 2, 9], rfl⟩) .Tcp 22)) (3 * second) false,
   .request (.msg (FwMessage.newOpen examplePeer .Tcp 22)) (300 * second) true,
   .request (.msg (FwMessage.newOpen examplePeer .Tcp 80)) (301 * second) true,
   .maintain (602 * second) { calmEnv with deleteOk := false }]

/-- C19, C20, C21: the history is fair and chronological and leaves the daemon running; the renewed lease is open, the expired
one and the failed one are closed. -/
example : Fair fwConf fwNames fwStarted fwHistory :=
  ⟨⟨fun _ => ⟨rfl, Nat.le_refl _⟩, fun _ => ⟨rfl, Nat.le_refl _⟩⟩, trivial, trivial, trivial, trivial, trivial,
    ⟨fun _ => ⟨rfl, Nat.le_refl _⟩, fun _ => ⟨rfl, Nat.le_refl _⟩⟩, trivial⟩
example : Chronological fwHistory := by unfold Chronological; decide
example :
    (fwdRun fwConf fwStarted fwHistory).2.phase = .running ∧
    (fwdRun fwConf fwStarted fwHistory).1.map (fun x => x.2.map (·.operation)) =
      [none, some .Ack, some .Ack, some .Nack, some .Ack, some .Nack, none] ∧
    chainAccepts fwNames (fwdRun fwConf fwStarted fwHistory).2.kernel ⟨examplePeer, .tcp, 22⟩ = true ∧
    chainAccepts fwNames (fwdRun fwConf fwStarted fwHistory).2.kernel ⟨examplePeer, .udp, 22⟩ = false ∧
    chainAccepts fwNames (fwdRun fwConf fwStarted fwHistory).2.kernel ⟨.v4 ⟨[192, 0, 2, 8], rfl⟩, .tcp, 443⟩ = false ∧
    chainAccepts fwNames (fwdRun fwConf fwStarted fwHistory).2.kernel ⟨.v4 ⟨[192, 0, 2, 9], rfl⟩, .tcp, 22⟩ = false ∧
    chainAccepts fwNames (fwdRun fwConf fwStarted fwHistory).2.kernel ⟨.v4 ⟨[192, 0, 2, 9], rfl⟩, .tcp, 5800⟩ = true ∧
    Grants.none.after fwConf.nftTimeout (fwdRun fwConf fwStarted fwHistory).1 examplePeer (.Tcp 22) = some (900 * second) := by
  decide +kernel

/-- Before expiry both ports of the second client are open. -/
example : chainAccepts fwNames (fwdRun fwConf fwStarted (fwHistory.take 6)).2.kernel ⟨.v4 ⟨[192, 0, 2, 8], rfl⟩, .udp, 443⟩ = true ∧
    (ownRules fwNames (fwdRun fwConf fwStarted (fwHistory.take 6)).2.kernel).length = 4 := by
  decide +kernel

/-- C22: termination empties the chain and leaves the other program's rule. -/
example : (fwdRun fwConf fwStarted (fwHistory ++ [.terminate true])).2.phase = .stopped ∧
    (fwdRun fwConf fwStarted (fwHistory ++ [.terminate true])).2.kernel.rules = fwKernel.rules.take 1 := by
  decide +kernel

/-- C19 (`harmless`): every operation of the example history is harmless. -/
example : ∀ op ∈ fwHistory, harmless op := by
  intro op h
  simp only [fwHistory, List.mem_cons, List.not_mem_nil, or_false] at h
  rcases h with rfl | rfl | rfl | rfl | rfl | rfl | rfl <;> first | trivial | rfl

/-- C24: an IPv4-mapped address gives IPv4 rules; an IPv6-only chain refuses it. -/
example : ∃ l : Lease, matchable .INet l.addr = true ∧ matchable .IP6 l.addr = false ∧
    covers l.addr l.port ⟨examplePeer, .udp, 53⟩ :=
  ⟨{ addr := .v6 ⟨[0, 0, 0, 0, 0, 0, 0, 0, 0, 0, 0xFF, 0xFF, 192, 0, 2, 7], rfl⟩, port := .TcpUdp 53, timeout := 0 },
    by decide, by decide, by decide, rfl⟩

/-- The hypothesis of `C18_configured_protocol_partial` holds of the request the example session makes. -/
example : FromLetmeind fwConf (.request (.msg (FwMessage.newOpen examplePeer .Tcp 22)) 7 true) := by
  intro m now ok h
  injection h with h
  injection h with h
  subst h
  refine ⟨toyMac, examplePeer, _, _, play_trace (session toyMac fwConf examplePeer) exampleScript, ?_⟩
  have : (fwRequests (play (session toyMac fwConf examplePeer) exampleScript).1) = [FwMessage.newOpen examplePeer .Tcp 22] := by
    decide +kernel
  have hm : FwMessage.newOpen examplePeer .Tcp 22 ∈ fwRequests (play (session toyMac fwConf examplePeer) exampleScript).1 := by
    rw [this]; simp
  exact List.mem_filterMap.1 hm

/-- **C18** (negation of the full statement). Port 22 is configured for TCP only, but letmeinfwd acknowledges a request to open it for
UDP and then accepts UDP packets to it. -/
theorem C18_fails : ∃ conf n k0 s0 op pkt, ChainOf conf n ∧ fwdStart conf k0 true = some s0 ∧
    (∀ e ∈ conf.resources, e.2.port = pkt.dport → e.2.udp = false) ∧ pkt.proto = .udp ∧ ¬ toControlPort conf pkt ∧
    chainAccepts n s0.kernel pkt = false ∧ (fwdStep conf s0 op).1 = some FwMessage.newAck ∧
    chainAccepts n (fwdStep conf s0 op).2.kernel pkt = true := by
  refine ⟨fwConf, fwNames, fwKernel, fwStarted, .request (.msg (FwMessage.newOpen examplePeer .Udp 22)) 0 true,
    ⟨examplePeer, .udp, 22⟩, ⟨by decide, rfl, rfl, by decide, by decide⟩, fwStarted_ok, ?_, rfl, ?_, ?_, ?_, ?_⟩
  · decide +kernel
  · simp [toControlPort, fwConf, exampleConf, Config.new, ControlPort.default]
  · decide +kernel
  · decide +kernel
  · decide +kernel

/-- The IPv4 address `a.b.c.d` spelled as IPv6 address. -/
def mapped (a : Arr 4) : IpAddr := .v6 ⟨[0, 0, 0, 0, 0, 0, 0, 0, 0, 0, 0xFF, 0xFF] ++ a.val, by simp [a.property]⟩

/-- **C25** (negation of the full statement). The unspecified and the broadcast IPv4 address, spelled as IPv4-mapped IPv6
addresses, are acknowledged and get a rule each. -/
theorem C25_fails : ∃ conf n k0 s0, ChainOf conf n ∧ fwdStart conf k0 true = some s0 ∧
    ∀ a : Arr 4, a = Arr.replicate 4 0 ∨ a = Arr.replicate 4 0xFF →
      hostOf (mapped a) = .v4 a ∧
      (fwdStep conf s0 (.request (.msg (FwMessage.newOpen (mapped a) .Tcp 22)) 0 true)).1 = some FwMessage.newAck ∧
      chainAccepts n (fwdStep conf s0 (.request (.msg (FwMessage.newOpen (mapped a) .Tcp 22)) 0 true)).2.kernel ⟨.v4 a, .tcp, 22⟩ = true := by
  refine ⟨fwConf, fwNames, fwKernel, fwStarted, ⟨by decide, rfl, rfl, by decide, by decide⟩, fwStarted_ok, ?_⟩
  rintro a (rfl | rfl) <;> decide +kernel

end Letmein.Props
