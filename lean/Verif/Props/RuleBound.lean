import Verif.Props.FirewallMore
import Verif.Props.Exact2

/-!
# Property C99: how many rules there can be

`/repo/letmeinfwd/src/firewall/nftables.rs:459-476`, `/repo/letmeinfwd/src/firewall.rs:109-134`. Nothing limits the number of leases. The
number of rules is bounded by what was asked for recently, and by nothing else.
-/

namespace Letmein

namespace Spec

/-- The entry of the history is a grant that has not expired at time `tm`. -/
def grantLive (timeout tm : Nat) (x : FwdOp × Option FwMessage) : Bool :=
  match granted x.1 x.2 with
  | some (_, _, to) => tm < to + timeout
  | none => false

/-- An address that can be given a lease: the chain can match it, and it is none of the four special ones. -/
structure Leasable (n : NftNames) (addr : IpAddr) : Prop where
  seen : familySees n.family (hostOf addr) = true
  any4 : addr ≠ .v4 (Arr.replicate 4 0)
  all4 : addr ≠ .v4 (Arr.replicate 4 0xFF)
  any6 : addr ≠ .v6 (Arr.replicate 16 0)
  all6 : addr ≠ .v6 (Arr.replicate 16 0xFF)

/-- Every address asks for the port once, all at the same time. -/
def askEach (addrs : List IpAddr) (t : PortType) (port : UInt16) (now : Nat) : List FwdOp :=
  addrs.map (fun a => .request (.msg (FwMessage.newOpen a t port)) now true)

end Spec

namespace Props

open Letmein Prog Spec

/-- A list without duplicates is no longer than one that has all its elements. -/
theorem nodup_length_le {α : Type} [DecidableEq α] : ∀ {l l' : List α}, l.Nodup → (∀ x ∈ l, x ∈ l') → l.length ≤ l'.length
  | [], _, _, _ => Nat.zero_le _
  | a :: l, l', hn, hs => by
    have ha := hs a (by simp)
    have hlen := List.length_erase_of_mem ha
    have hpos : 0 < l'.length := List.length_pos_of_mem ha
    have := nodup_length_le (l := l) (l' := l'.erase a) (List.nodup_cons.1 hn).2 (by
      intro x hx
      have hne : x ≠ a := by
        rintro rfl
        exact (List.nodup_cons.1 hn).1 hx
      exact (List.mem_erase_of_ne hne).2 (hs x (by simp [hx])))
    simp only [List.length_cons]
    omega

theorem ruleCount_le (p : LeasePort) : ruleCount p ≤ 2 := by cases p <;> simp [ruleCount]

theorem ruleCount_sum_le (ids : List (IpAddr × LeasePort)) : (ids.map (fun id => ruleCount id.2)).sum ≤ 2 * ids.length := by
  induction ids with
  | nil => simp
  | cons id ids ih =>
    have := ruleCount_le id.2
    simp only [List.map_cons, List.sum_cons, List.length_cons]
    omega

/-- C99, what holds of a limit: at any time the chain of a running daemon has at most the rules for the control port and two for each
request that was granted and had not expired at the last maintenance. Missing: the number of these requests is not limited
(`C99_negation`). -/
theorem C99_bound_partial (conf : Config) (n : NftNames) (hn : ChainOf conf n) (k0 : Kernel) (ok0 : Bool) (s0 : FwdState)
    (h0 : fwdStart conf k0 ok0 = some s0) (ops : List FwdOp) (hf : Fair conf n s0 ops)
    (hr : (fwdRun conf s0 ops).2.phase = .running) (hch : Chronological ops) (tm : Nat) (env : NftEnv)
    (hm : FwdOp.maintain tm env ∈ ops) (hpos : 0 < conf.nftTimeout) :
    (ownRules n (fwdRun conf s0 ops).2.kernel).length ≤
      (if conf.port.tcp then 1 else 0) + (if conf.port.udp then 1 else 0) +
        2 * ((fwdRun conf s0 ops).1.filter (grantLive conf.nftTimeout tm)).length := by
  have hpos : (0 : Nat) < conf.nftTimeout := hpos
  obtain ⟨ids, hnd, hmem, hlen⟩ := C21_rule_count conf n hn k0 ok0 s0 h0 ops hf hr
  have hids : ids.length ≤ ((fwdRun conf s0 ops).1.filter (grantLive conf.nftTimeout tm)).length := by
    refine Nat.le_trans (nodup_length_le (l' := ((fwdRun conf s0 ops).1.filter (grantLive conf.nftTimeout tm)).filterMap
      (fun x => (granted x.1 x.2).map (fun g => (g.1, g.2.1)))) hnd ?_) (List.length_filterMap_le _ _)
    rintro ⟨a, p⟩ hid
    obtain ⟨e, hg⟩ := Option.isSome_iff_exists.1 ((hmem a p).1 hid)
    rcases grants_origin hg with ⟨h, _⟩ | ⟨h1, x, h2, to, hh, hx, he, hlt⟩
    · simp [Grants.none] at h
    · refine List.mem_filterMap.2 ⟨x, List.mem_filter.2 ⟨by rw [hh]; simp, ?_⟩, by rw [hx]; rfl⟩
      simp only [grantLive, hx, decide_eq_true_eq]
      have hops := fwdRun_ops conf s0 ops
      rw [hh] at hops
      simp only [List.map_append, List.map_cons] at hops
      rw [← hops] at hm hch
      rcases List.mem_append.1 hm with hm | hm
      · have hle : tm ≤ to := by
          unfold Chronological at hch
          rw [List.filterMap_append, List.pairwise_append] at hch
          exact hch.2.2 tm (List.mem_filterMap.2 ⟨_, hm, rfl⟩) to (List.mem_filterMap.2 ⟨x.1, by simp, granted_time hx⟩)
        omega
      · rcases List.mem_cons.1 hm with hm | hm
        · rw [← hm] at hx; simp [granted] at hx
        · obtain ⟨y, hy, hy2⟩ := List.mem_map.1 hm
          have := hlt tm env y.2 (by rw [← hy2]; exact hy)
          omega
  have hs := ruleCount_sum_le ids
  rw [hlen]
  omega

/-- Asking for each address keeps the daemon running and fills the table with exactly these addresses. -/
theorem askEach_table {conf : Config} {n : NftNames} (hn : ChainOf conf n) {k0 : Kernel} {ok0 : Bool} {s0 : FwdState}
    (h0 : fwdStart conf k0 ok0 = some s0) {t : PortType} {port : UInt16} (hp : ∃ e ∈ conf.resources, e.2.port = port)
    (hc : port ≠ conf.port.port) (now : Nat) {addrs : List IpAddr} (ha : ∀ a ∈ addrs, Leasable n a) :
    Fair conf n s0 (askEach addrs t port now) ∧ (fwdRun conf s0 (askEach addrs t port now)).2.phase = .running ∧
    ∀ a p, Grants.none.after conf.nftTimeout (fwdRun conf s0 (askEach addrs t port now)).1 a p =
      if a ∈ addrs ∧ p = selection t port then some (now + conf.nftTimeout) else none := by
  generalize hN : addrs.length = N
  induction N generalizing addrs with
  | zero =>
    rw [List.length_eq_zero_iff] at hN
    subst hN
    exact ⟨trivial, (fwdStart_inv h0).1, fun a p => by simp [askEach, fwdRun, Grants.after, Grants.none]⟩
  | succ N ih =>
    obtain ⟨init, a0, rfl⟩ : ∃ init a0, addrs = init ++ [a0] :=
      ⟨addrs.dropLast, addrs.getLast (by intro h; simp [h] at hN), (List.dropLast_concat_getLast _).symm⟩
    obtain ⟨i1, i2, i3⟩ := ih (addrs := init) (fun a h => ha a (by simp [h])) (by simpa using hN)
    have hl := ha a0 (by simp)
    have hack := C17_valid_requests_acked conf n hn k0 ok0 s0 h0 _ i1 (.inl i2) a0 t port hl.seen hl.any4 hl.all4 hl.any6 hl.all6 hp hc now
    have hsplit : askEach (init ++ [a0]) t port now = askEach init t port now ++ [.request (.msg (FwMessage.newOpen a0 t port)) now true] := by
      simp [askEach]
    have hcr := C49_no_crash conf k0 ok0 s0 h0 (askEach init t port now ++ [.request (.msg (FwMessage.newOpen a0 t port)) now true])
    obtain ⟨e1, e2⟩ := exact_snoc conf s0 (askEach init t port now) (.request (.msg (FwMessage.newOpen a0 t port)) now true)
    rw [hsplit]
    refine ⟨exact_fair i1 _ _ _, ?_, ?_⟩
    · rw [e1] at hcr ⊢
      exact exact_phase i2 _ _ _ hcr
    · intro a p
      rw [e2, exact_after, hack]
      have hgr : granted (.request (.msg (FwMessage.newOpen a0 t port)) now true) (some FwMessage.newAck) = some (a0, selection t port, now) := by
        simp only [granted, newOpen_getAddr]
        rfl
      rw [step_granted hgr]
      by_cases h1 : a = a0 ∧ p = selection t port
      · rw [if_pos h1, if_pos ⟨by simp [h1.1], h1.2⟩]
      · rw [if_neg h1, i3]
        by_cases h2 : a ∈ init ∧ p = selection t port
        · rw [if_pos h2, if_pos ⟨by simp [h2.1], h2.2⟩]
        · rw [if_neg h2, if_neg]
          rintro ⟨h3, h4⟩
          rcases List.mem_append.1 h3 with h3 | h3
          · exact h2 ⟨h3, h4⟩
          · exact h1 ⟨by simpa using h3, h4⟩

/-- C99: there is no limit: if any number of addresses ask for a port then the chain has rules for each of them. -/
theorem C99_rules_per_address (conf : Config) (n : NftNames) (hn : ChainOf conf n) (k0 : Kernel) (ok0 : Bool) (s0 : FwdState)
    (h0 : fwdStart conf k0 ok0 = some s0) (t : PortType) (port : UInt16) (hp : ∃ e ∈ conf.resources, e.2.port = port)
    (hc : port ≠ conf.port.port) (now : Nat) (addrs : List IpAddr) (ha : ∀ a ∈ addrs, Leasable n a) (hnd : addrs.Nodup) :
    (fwdRun conf s0 (askEach addrs t port now)).2.phase = .running ∧
    (ownRules n (fwdRun conf s0 (askEach addrs t port now)).2.kernel).length =
      (if conf.port.tcp then 1 else 0) + (if conf.port.udp then 1 else 0) + addrs.length * ruleCount (selection t port) := by
  obtain ⟨h1, h2, h3⟩ := askEach_table hn h0 (t := t) hp hc now ha
  refine ⟨h2, ?_⟩
  obtain ⟨ids, i1, i2, i3⟩ := C21_rule_count conf n hn k0 ok0 s0 h0 _ h1 h2
  rw [i3]
  congr 1
  have hmem : ∀ a p, (a, p) ∈ ids ↔ a ∈ addrs ∧ p = selection t port := by
    intro a p
    rw [i2, h3]
    by_cases h : a ∈ addrs ∧ p = selection t port
    · rw [if_pos h]; simp [h]
    · rw [if_neg h]; simp [h]
  have hnd' : (addrs.map (fun a => (a, selection t port))).Nodup := by
    unfold List.Nodup at hnd ⊢
    rw [List.pairwise_map]
    exact hnd.imp (fun h => by simpa using h)
  have hle1 := nodup_length_le i1 (l' := addrs.map (fun a => (a, selection t port))) (by
    rintro ⟨a, p⟩ h
    obtain ⟨h4, rfl⟩ := (hmem a p).1 h
    exact List.mem_map.2 ⟨a, h4, rfl⟩)
  have hle2 := nodup_length_le hnd' (l' := ids) (by
    intro x h
    obtain ⟨a, h4, rfl⟩ := List.mem_map.1 h
    exact (hmem _ _).2 ⟨h4, rfl⟩)
  have hsum : ∀ l : List (IpAddr × LeasePort), (∀ x ∈ l, x.2 = selection t port) →
      (l.map (fun id => ruleCount id.2)).sum = l.length * ruleCount (selection t port) := by
    intro l hl
    induction l with
    | nil => simp
    | cons x l ih =>
      rw [List.map_cons, List.sum_cons, ih (fun y hy => hl y (by simp [hy])), hl x (by simp), List.length_cons, Nat.succ_mul, Nat.add_comm]
  rw [hsum ids (fun x hx => ((hmem x.1 x.2).1 hx).2)]
  simp only [List.length_map] at hle1 hle2
  rw [Nat.le_antisymm hle1 hle2]

/-- The address `2001:db8::i`. -/
def subnetAddr (i : Nat) : IpAddr := .v6 ⟨[0x20, 1, 0xd, 0xb8, 0, 0, 0, 0, 0, 0, 0, 0] ++ be32 (UInt32.ofNat i), rfl⟩

theorem subnetAddr_inj {i j : Nat} (hi : i < 4294967296) (hj : j < 4294967296) (h : subnetAddr i = subnetAddr j) : i = j := by
  unfold subnetAddr at h
  injection h with h
  have h := congrArg Subtype.val h
  have h := List.append_cancel_left h
  rw [be32_eq, be32_eq] at h
  have h := be_inj (UInt32.toNat_lt _) (UInt32.toNat_lt _) h
  rwa [UInt32.toNat_ofNat_of_lt' hi, UInt32.toNat_ofNat_of_lt' hj] at h

/-- C99 is false as it stands: for every number there is a history in which this number of addresses of one IPv6 network, each asking once,
leads to this number of rules, beside those for the control port. (Numbers up to `2^32` are shown.) -/
theorem C99_negation : ∃ conf n k0 s0, ChainOf conf n ∧ fwdStart conf k0 true = some s0 ∧
    ∀ N ≤ 4294967296, ∃ ops, ops.length = N ∧ Fair conf n s0 ops ∧ (fwdRun conf s0 ops).2.phase = .running ∧
      N ≤ (ownRules n (fwdRun conf s0 ops).2.kernel).length := by
  have hn : ChainOf fwConf fwNames := ⟨by decide, rfl, rfl, by decide, by decide⟩
  refine ⟨fwConf, fwNames, fwKernel, fwStarted, hn, fwStarted_ok, ?_⟩
  intro N hN
  have hp : ∃ e ∈ fwConf.resources, e.2.port = 22 := by decide
  have hc : (22 : UInt16) ≠ fwConf.port.port := by decide
  have ha : ∀ a ∈ (List.range N).map subnetAddr, Leasable fwNames a := by
    intro a h
    obtain ⟨i, -, rfl⟩ := List.mem_map.1 h
    refine ⟨by cases hostOf (subnetAddr i) <;> rfl, by simp [subnetAddr], by simp [subnetAddr], ?_, ?_⟩
    · intro h
      unfold subnetAddr at h
      injection h with h
      have h := congrArg (fun a => a.val.head?) h
      exact absurd h (by simp [Arr.replicate, List.replicate])
    · intro h
      unfold subnetAddr at h
      injection h with h
      have h := congrArg (fun a => a.val.head?) h
      exact absurd h (by simp [Arr.replicate, List.replicate])
  have hnd : ((List.range N).map subnetAddr).Nodup := by
    unfold List.Nodup
    rw [List.pairwise_map]
    refine List.Pairwise.imp_of_mem ?_ (List.nodup_range (n := N))
    intro i j hi hj hne h
    rw [List.mem_range] at hi hj
    exact hne (subnetAddr_inj (by omega) (by omega) h)
  obtain ⟨h1, h2⟩ := C99_rules_per_address fwConf fwNames hn fwKernel true fwStarted fwStarted_ok .Tcp 22 hp hc 0 _ ha hnd
  refine ⟨askEach ((List.range N).map subnetAddr) .Tcp 22 0, by simp [askEach], (askEach_table hn fwStarted_ok hp hc 0 ha).1, h1, ?_⟩
  rw [h2]
  simp only [List.length_map, List.length_range, selection, ruleCount]
  omega

/-- The bound is attained: two addresses ask for TCP and UDP, the leases of two others have expired. -/
example : let ops := askEach [subnetAddr 1, subnetAddr 2] .TcpUdp 22 0 ++ [.maintain 600000000000 calmEnv] ++
      askEach [subnetAddr 3, subnetAddr 4] .TcpUdp 22 600000000000
    (fwdRun fwConf fwStarted ops).2.phase = .running ∧ 0 < fwConf.nftTimeout ∧
    (ownRules fwNames (fwdRun fwConf fwStarted ops).2.kernel).length = 1 + 2 * 2 ∧
    ((fwdRun fwConf fwStarted ops).1.filter (grantLive fwConf.nftTimeout 600000000000)).length = 2 := by
  decide +kernel

end Props

end Letmein
