import Verif.Model.NftRuns
import Verif.Lemmas.Float
import Verif.Props.ConfWrite
import Verif.Props.Firewall
import Verif.Props.Json

/-!
# C128: what letmeinfwd runs as root, and how often

`/repo/doc/CONFIGURATION.md:245-266` describes the option `exe`, by which the administrator chooses the `nft` that letmeinfwd runs ("it can be used to harden against
injection of forged a `nft` executable somewhere else in the `$PATH`").
-/

namespace Letmein.Spec
open Letmein

/-- The command lines of letmeinfwd's children. Nothing in them depends on a message, an address, the time or the ruleset. -/
def commandLines : List (List String) := [["--help"], ["-j", "list", "ruleset"], ["-j", "-f", "-"]]

/-- The child is the configured program with one of the command lines; what it reads is empty or, for the last of them, a batch about the chain `n` only. -/
structure ProperChild (conf : Config) (n : NftNames) (ch : Child) : Prop where
  program : ch.program = conf.nftExe
  args : ∃ l ∈ commandLines, ch.args = l.map String.toList
  stdin : (ch.stdin = [] ∧ ch.args ≠ ["-j", "-f", "-"].map String.toList) ∨
    (ch.args = ["-j", "-f", "-"].map String.toList ∧ ∃ read, readNft ch.stdin = some read ∧ ∀ c ∈ read, cmdChain c = (n.family, n.table, n.chainInput))

/-- A request to open a configured port, other than the control port, for an address that is no special one. -/
def AsksToOpen (conf : Config) (op : FwdOp) : Prop :=
  ∃ m now ok addr t port, op = .request (.msg m) now ok ∧ m.operation = .Open ∧ m.getAddr = some addr ∧ m.getPort = some (t, port) ∧
    addr ≠ .v4 (Arr.replicate 4 0) ∧ addr ≠ .v4 (Arr.replicate 4 0xFF) ∧ addr ≠ .v6 (Arr.replicate 16 0) ∧ addr ≠ .v6 (Arr.replicate 16 0xFF) ∧
    (∃ e ∈ conf.resources, e.2.port = port) ∧ port ≠ conf.port.port

open Classical in
/-- The number of such requests. -/
noncomputable def openRequests (conf : Config) (ops : List FwdOp) : Nat := (ops.filter (fun op => decide (AsksToOpen conf op))).length

/-- Nobody else changes the ruleset while the operation runs. -/
def AloneWithNft : FwdOp → Prop
  | .foreign _ => False
  | .maintain _ env => env.afterList = id ∧ env.beforeRebuild = id
  | _ => True

end Letmein.Spec

namespace Letmein.Props
open Letmein Prog Spec

/-! ## The children do not change anything else -/

theorem fullRebuildRun_snd (conf : Config) (fw : NftFirewall) (k : Kernel) (ok : Bool) : (fullRebuildRun conf fw k ok).2 = fullRebuild conf fw k ok := by
  unfold fullRebuildRun fullRebuild
  cases rebuildCmds conf fw <;> rfl

theorem addLeaseRun_snd (conf : Config) (l : Lease) (k : Kernel) (ok : Bool) : (addLeaseRun conf l k ok).2 = addLease conf l k ok := by
  unfold addLeaseRun addLease
  cases genAddLeaseCmds conf l <;> rfl

theorem removeLeasesRun_snd (conf : Config) (ls : List Lease) (k : Kernel) (env : NftEnv) :
    (removeLeasesRun conf ls k env).2 = removeLeases conf ls k env := by
  unfold removeLeasesRun removeLeases
  split
  · rfl
  · split
    · rfl
    · cases collect (genDeleteLeaseCmds conf k.rules) ls <;> rfl

theorem newRun_snd (conf : Config) (k : Kernel) (helpOk nftOk : Bool) : (newRun conf k helpOk nftOk).2 = (
    if helpOk then NftFirewall.new conf k nftOk else (.err, k)) := by
  unfold newRun NftFirewall.new
  cases helpOk
  · rfl
  · simp only [Bool.not_true, Bool.false_eq_true, if_false, if_true]
    rw [← fullRebuildRun_snd]
    obtain ⟨cs, r, k'⟩ := fullRebuildRun conf { leases := [], shutdown := false } k nftOk
    cases r <;> rfl

theorem doShutdownRun_snd (conf : Config) (fw : NftFirewall) (k : Kernel) (ok : Bool) : (doShutdownRun conf fw k ok).2 = fw.doShutdown conf k ok := by
  unfold doShutdownRun NftFirewall.doShutdown
  split
  · rfl
  · simp only [← fullRebuildRun_snd]

theorem maintainRun_snd (conf : Config) (fw : NftFirewall) (k : Kernel) (now : Nat) (env : NftEnv) :
    (maintainRun conf fw k now env).2 = fw.maintain conf k now env := by
  unfold maintainRun NftFirewall.maintain
  split
  · rfl
  · dsimp only
    split
    · rfl
    · rw [← removeLeasesRun_snd]
      obtain ⟨cs, r, k'⟩ := removeLeasesRun conf (pruneAllLeaseTimeouts now fw.leases).2 k env
      cases r
      · rfl
      · simp only [← fullRebuildRun_snd]
      · rfl

theorem openPortRun_snd (conf : Config) (fw : NftFirewall) (k : Kernel) (now : Nat) (addr : IpAddr) (port : LeasePort) (ok : Bool) :
    (openPortRun conf fw k now addr port ok).2 = fw.openPort conf k now addr port ok := by
  unfold openPortRun NftFirewall.openPort
  split
  · rfl
  · dsimp only
    split
    · rfl
    · cases Lease.new conf now addr port with
      | ok l =>
        dsimp only
        rw [← addLeaseRun_snd]
        obtain ⟨cs, r, k'⟩ := addLeaseRun conf l k ok
        cases r <;> rfl
      | err => rfl
      | panic => rfl

theorem handleMessageRun_snd (conf : Config) (fw : NftFirewall) (k : Kernel) (rx : FwRecvOut) (now : Nat) (ok : Bool) :
    (handleMessageRun conf fw k rx now ok).2 = handleMessage conf fw k rx now ok := by
  unfold handleMessageRun handleMessage
  cases fwdDecide conf rx with
  | silent => rfl
  | nack => rfl
  | openPort addr port =>
    dsimp only
    rw [← openPortRun_snd]
    obtain ⟨cs, r, fw', k'⟩ := openPortRun conf fw k now addr port ok
    cases r <;> rfl

theorem stepRun_snd (conf : Config) (s : FwdState) (op : FwdOp) : (stepRun conf s op).2 = fwdStep conf s op := by
  obtain ⟨phase, fw, k⟩ := s
  cases op with
  | foreign _ => rfl
  | reorder _ => rfl
  | terminate ok =>
    cases phase <;> try rfl
    all_goals
      simp only [stepRun, fwdStep]
      rw [← doShutdownRun_snd]
      obtain ⟨cs, r, fw', k'⟩ := doShutdownRun conf fw k ok
      cases r <;> rfl
  | request rx now ok =>
    cases phase <;> try rfl
    all_goals
      simp only [stepRun, fwdStep]
      rw [← handleMessageRun_snd]
      obtain ⟨cs, r, rep, fw', k'⟩ := handleMessageRun conf fw k rx now ok
      cases r <;> rfl
  | maintain now env =>
    cases phase <;> try rfl
    simp only [stepRun, fwdStep]
    rw [← maintainRun_snd]
    obtain ⟨cs, r, fw', k'⟩ := maintainRun conf fw k now env
    cases r <;> rfl

/-! ## What the children are -/

theorem properChild_help (conf : Config) (n : NftNames) : ProperChild conf n (helpChild conf) :=
  ⟨rfl, ⟨["--help"], by decide, rfl⟩, .inl ⟨rfl, (by show ["--help"].map String.toList ≠ _; decide)⟩⟩

theorem properChild_list (conf : Config) (n : NftNames) : ProperChild conf n (listChild conf) :=
  ⟨rfl, ⟨["-j", "list", "ruleset"], by decide, rfl⟩, .inl ⟨rfl, (by show ["-j", "list", "ruleset"].map String.toList ≠ _; decide)⟩⟩

theorem properChild_apply {conf : Config} {n : NftNames} {cmds : List NfCmd} (h : ∀ c ∈ cmds, cmdOwn n c) : ProperChild conf n (applyChild conf cmds) :=
  ⟨rfl, ⟨["-j", "-f", "-"], by decide, rfl⟩, .inr ⟨rfl, cmds, readNft_text cmds, fun c hc => cmdChain_own (h c hc)⟩⟩

theorem fullRebuildRun_children {conf : Config} {n : NftNames} (hn : ChainOf conf n) (fw : NftFirewall) (k : Kernel) (ok : Bool) :
    (∀ ch ∈ (fullRebuildRun conf fw k ok).1, ProperChild conf n ch) ∧ (fullRebuildRun conf fw k ok).1.length ≤ 1 ∧
      ((fullRebuildRun conf fw k ok).2.2 = k ∨ ∃ ch ∈ (fullRebuildRun conf fw k ok).1, ∃ cmds, readNft ch.stdin = some cmds ∧
        applyCmds k cmds = some (fullRebuildRun conf fw k ok).2.2) := by
  unfold fullRebuildRun
  cases h : rebuildCmds conf fw with
  | ok cmds =>
    refine ⟨?_, Nat.le_refl _, ?_⟩
    · intro ch hc
      cases List.mem_singleton.1 hc
      exact properChild_apply (rebuildCmds_own hn h)
    · simp only [applyBatchRun, applyBatch]
      cases ok
      · exact .inl rfl
      · cases hk : applyCmds k cmds with
        | none => exact .inl (by simp)
        | some k' => exact .inr ⟨_, List.mem_singleton.2 rfl, cmds, readNft_text cmds, (by simpa using hk)⟩
  | err => exact ⟨by simp, by simp, .inl rfl⟩
  | panic => exact ⟨by simp, by simp, .inl rfl⟩

theorem addLeaseRun_children {conf : Config} {n : NftNames} (hn : ChainOf conf n) (l : Lease) (k : Kernel) (ok : Bool) :
    (∀ ch ∈ (addLeaseRun conf l k ok).1, ProperChild conf n ch ∧ ∀ pkt, TextOpens ch.stdin pkt ↔ covers l.addr l.port pkt) ∧
      (addLeaseRun conf l k ok).1.length ≤ 1 ∧
      ((addLeaseRun conf l k ok).2.2 = k ∨ ∃ ch ∈ (addLeaseRun conf l k ok).1, ∃ cmds, readNft ch.stdin = some cmds ∧
        applyCmds k cmds = some (addLeaseRun conf l k ok).2.2) := by
  unfold addLeaseRun
  cases h : genAddLeaseCmds conf l with
  | ok cmds =>
    refine ⟨?_, Nat.le_refl _, ?_⟩
    · intro ch hc
      cases List.mem_singleton.1 hc
      exact ⟨properChild_apply (genAddLeaseCmds_own hn h), fun pkt => C90_lease hn h pkt⟩
    · simp only [applyBatchRun, applyBatch]
      cases ok
      · exact .inl rfl
      · cases hk : applyCmds k cmds with
        | none => exact .inl (by simp)
        | some k' => exact .inr ⟨_, List.mem_singleton.2 rfl, cmds, readNft_text cmds, (by simpa using hk)⟩
  | err => exact ⟨by simp, by simp, .inl rfl⟩
  | panic => exact ⟨by simp, by simp, .inl rfl⟩

theorem removeLeasesRun_children {conf : Config} {n : NftNames} (hn : ChainOf conf n) (ls : List Lease) (k : Kernel) (env : NftEnv) :
    (∀ ch ∈ (removeLeasesRun conf ls k env).1, ProperChild conf n ch) ∧ (removeLeasesRun conf ls k env).1.length ≤ 2 ∧
      ((removeLeasesRun conf ls k env).1 = [] → ls = []) ∧
      (env.afterList = id → ((removeLeasesRun conf ls k env).2.2 = k ∨ ((removeLeasesRun conf ls k env).2.1 = .ok () ∧
        ∃ ch ∈ (removeLeasesRun conf ls k env).1, ∃ cmds, readNft ch.stdin = some cmds ∧
        applyCmds k cmds = some (removeLeasesRun conf ls k env).2.2))) := by
  unfold removeLeasesRun
  split
  · rename_i hl
    exact ⟨by simp, by simp, fun _ => by simpa using hl, fun _ => .inl rfl⟩
  · split
    · refine ⟨?_, by simp, by simp, fun _ => .inl rfl⟩
      intro ch hc
      cases List.mem_singleton.1 hc
      exact properChild_list conf n
    · cases h : collect (genDeleteLeaseCmds conf k.rules) ls with
      | ok css =>
        refine ⟨?_, Nat.le_refl _, by simp, ?_⟩
        · intro ch hc
          rcases List.mem_cons.1 hc with rfl | hc
          · exact properChild_list conf n
          · cases List.mem_singleton.1 hc
            refine properChild_apply fun c hc => ?_
            obtain ⟨cs, hcs, hc⟩ := List.mem_flatten.1 hc
            obtain ⟨l, _, hl⟩ := mem_collect h hcs
            exact genDelete_own hn hl c hc
        · intro hid
          simp only [applyBatchRun, applyBatch, hid, id_eq]
          cases env.deleteOk
          · exact .inl rfl
          · cases hk : applyCmds k css.flatten with
            | none => exact .inl (by simp)
            | some k' => exact .inr ⟨by simp, _, List.mem_cons_of_mem _ (List.mem_singleton.2 rfl), css.flatten, readNft_text _, (by simpa using hk)⟩
      | err =>
        refine ⟨?_, by simp, by simp, fun hid => .inl (by simp [hid])⟩
        intro ch hc
        cases List.mem_singleton.1 hc
        exact properChild_list conf n
      | panic =>
        refine ⟨?_, by simp, by simp, fun hid => .inl (by simp [hid])⟩
        intro ch hc
        cases List.mem_singleton.1 hc
        exact properChild_list conf n

theorem maintainRun_children {conf : Config} {n : NftNames} (hn : ChainOf conf n) (fw : NftFirewall) (k : Kernel) (now : Nat) (env : NftEnv) :
    (∀ ch ∈ (maintainRun conf fw k now env).1, ProperChild conf n ch) ∧
      (maintainRun conf fw k now env).1.length + 3 * (maintainRun conf fw k now env).2.2.1.leases.length ≤ 3 * fw.leases.length ∧
      ((maintainRun conf fw k now env).1 ≠ [] → ∃ e ∈ fw.leases, e.2.timeout ≤ now) ∧
      ((maintainRun conf fw k now env).1 = [] → (maintainRun conf fw k now env).2.2.2 = k) ∧
      (env.afterList = id → env.beforeRebuild = id → ((maintainRun conf fw k now env).2.2.2 = k ∨
        ∃ ch ∈ (maintainRun conf fw k now env).1, ∃ cmds, readNft ch.stdin = some cmds ∧
          applyCmds k cmds = some (maintainRun conf fw k now env).2.2.2)) := by
  have hlen : (pruneAllLeaseTimeouts now fw.leases).1.length + (pruneAllLeaseTimeouts now fw.leases).2.length = fw.leases.length := by
    simp only [pruneAllLeaseTimeouts, List.length_map]
    generalize fw.leases = l
    induction l with
    | nil => rfl
    | cons e l ih =>
      simp only [List.filter_cons]
      cases e.2.isTimedOut now <;> simp <;> omega
  have hex : (pruneAllLeaseTimeouts now fw.leases).2 ≠ [] → ∃ e ∈ fw.leases, e.2.timeout ≤ now := by
    intro h
    obtain ⟨l, hl⟩ := List.exists_mem_of_ne_nil _ h
    obtain ⟨e, he, rfl⟩ := List.mem_map.1 hl
    rw [List.mem_filter] at he
    exact ⟨e, he.1, by simpa [Lease.isTimedOut] using he.2⟩
  unfold maintainRun
  split
  · exact ⟨by simp, by simp, by simp, fun _ => rfl, fun _ _ => .inl rfl⟩
  · dsimp only
    generalize pruneAllLeaseTimeouts now fw.leases = p at *
    split
    · exact ⟨by simp, by dsimp only [List.length_nil]; omega, by simp, fun _ => rfl, fun _ _ => .inl rfl⟩
    · rename_i hp
      have hp : p.2 ≠ [] := by simpa using hp
      have hpl : 1 ≤ p.2.length := by
        cases h : p.2 with
        | nil => exact absurd h hp
        | cons _ _ => simp
      obtain ⟨g1, g2, g3, g4⟩ := removeLeasesRun_children hn p.2 k env
      generalize removeLeasesRun conf p.2 k env = q at *
      obtain ⟨cs, r, k'⟩ := q
      dsimp only at g1 g2 g3 g4
      cases r with
      | ok u =>
        refine ⟨g1, by dsimp only; omega, fun _ => hex hp, fun h => absurd (g3 h) hp, fun h1 _ => ?_⟩
        rcases g4 h1 with h | ⟨_, h⟩
        · exact .inl h
        · exact .inr h
      | panic =>
        refine ⟨g1, by dsimp only; omega, fun _ => hex hp, fun h => absurd (g3 h) hp, fun h1 _ => ?_⟩
        rcases g4 h1 with h | ⟨h, _⟩
        · exact .inl h
        · cases h
      | err =>
        obtain ⟨f1, f2, f3⟩ := fullRebuildRun_children hn { fw with leases := p.1 } (env.beforeRebuild k') env.rebuildOk
        refine ⟨?_, by dsimp only; rw [List.length_append]; omega, fun _ => hex hp, ?_, ?_⟩
        · intro ch hc
          rcases List.mem_append.1 hc with hc | hc
          · exact g1 ch hc
          · exact f1 ch hc
        · intro he
          exact absurd (g3 (List.append_eq_nil_iff.1 he).1) hp
        · intro h1 h2
          have hb : env.beforeRebuild k' = k' := by rw [h2]; rfl
          rw [hb] at f3
          dsimp only
          rw [hb]
          have hk : k' = k := by
            rcases g4 h1 with h | ⟨h, _⟩
            · exact h
            · cases h
          subst hk
          rcases f3 with h | ⟨ch, hc, cmds, h3⟩
          · exact .inl h
          · exact .inr ⟨ch, List.mem_append.2 (.inr hc), cmds, h3⟩

theorem openPortRun_children {conf : Config} {n : NftNames} (hn : ChainOf conf n) (fw : NftFirewall) (k : Kernel) (now : Nat) (addr : IpAddr)
    (port : LeasePort) (ok : Bool) :
    (∀ ch ∈ (openPortRun conf fw k now addr port ok).1, ProperChild conf n ch ∧ ∀ pkt, TextOpens ch.stdin pkt ↔ covers addr port pkt) ∧
      (openPortRun conf fw k now addr port ok).1.length ≤ 1 ∧
      (openPortRun conf fw k now addr port ok).2.2.1.leases.length ≤ fw.leases.length + 1 ∧
      ((openPortRun conf fw k now addr port ok).1 ≠ [] → ∀ l, ((addr, port), l) ∉ fw.leases) ∧
      ((openPortRun conf fw k now addr port ok).2.2.2 = k ∨ ∃ ch ∈ (openPortRun conf fw k now addr port ok).1, ∃ cmds,
        readNft ch.stdin = some cmds ∧ applyCmds k cmds = some (openPortRun conf fw k now addr port ok).2.2.2) := by
  unfold openPortRun
  split
  · exact ⟨by simp, by simp, by simp, by simp, .inl rfl⟩
  · dsimp only
    split
    · exact ⟨by simp, by simp, by simp [leaseUpdate], by simp, .inl rfl⟩
    · rename_i hno
      have hno : ∀ l, ((addr, port), l) ∉ fw.leases := by
        intro l hl
        exact hno (List.any_eq_true.2 ⟨_, hl, by simp⟩)
      cases h : Lease.new conf now addr port with
      | ok l =>
        have hl : l.addr = addr ∧ l.port = port := by
          unfold Lease.new rassert at h
          split at h
          · injection h with h; subst h; exact ⟨rfl, rfl⟩
          · cases h
        obtain ⟨g1, g2, g3⟩ := addLeaseRun_children hn l k ok
        rw [hl.1, hl.2] at g1
        dsimp only
        generalize addLeaseRun conf l k ok = q at *
        obtain ⟨cs, r, k'⟩ := q
        cases r with
        | ok u => exact ⟨g1, g2, by simp, fun _ => hno, g3⟩
        | err => exact ⟨g1, g2, by simp, fun _ => hno, g3⟩
        | panic => exact ⟨g1, g2, by simp, fun _ => hno, g3⟩
      | err => exact ⟨by simp, by simp, by simp, by simp, .inl rfl⟩
      | panic => exact ⟨by simp, by simp, by simp, by simp, .inl rfl⟩

/-- What is known about a request that has children or changes anything. -/
structure RequestRun (conf : Config) (n : NftNames) (s : FwdState) (rx : FwRecvOut) (cs : List Child) (s' : FwdState) : Prop where
  proper : ∀ ch ∈ cs, ProperChild conf n ch
  one : cs.length ≤ 1
  leases : s'.fw.leases.length ≤ s.fw.leases.length + 1
  asked : cs ≠ [] ∨ s'.fw.leases.length ≠ s.fw.leases.length → ∀ now ok, AsksToOpen conf (.request rx now ok)
  opens : ∀ ch ∈ cs, ∃ m addr t port, rx = .msg m ∧ m.getAddr = some addr ∧ m.getPort = some (t, port) ∧
    (∀ l, ((addr, selection t port), l) ∉ s.fw.leases) ∧ ∀ pkt, TextOpens ch.stdin pkt ↔ covers addr (selection t port) pkt
  phase : s'.phase = .running ∨ s'.phase = .stopping → s.phase = .running ∨ s.phase = .stopping
  kernel : s'.kernel = s.kernel ∨ ∃ ch ∈ cs, ∃ cmds, readNft ch.stdin = some cmds ∧ applyCmds s.kernel cmds = some s'.kernel

theorem requestRun_same {conf : Config} {n : NftNames} (s : FwdState) (rx : FwRecvOut) : RequestRun conf n s rx [] s :=
  ⟨by simp, by simp, by omega, by simp, by simp, id, .inl rfl⟩

theorem stepRun_request {conf : Config} {n : NftNames} (hn : ChainOf conf n) (s : FwdState) (rx : FwRecvOut) (now : Nat) (ok : Bool) :
    RequestRun conf n s rx (stepRun conf s (.request rx now ok)).1 (stepRun conf s (.request rx now ok)).2.2 := by
  obtain ⟨phase, fw, k⟩ := s
  have main : phase = .running ∨ phase = .stopping →
      RequestRun conf n ⟨phase, fw, k⟩ rx
        (match handleMessageRun conf fw k rx now ok with
          | (cs, .panic, _, fw, k) => (cs, (none : Option FwMessage), ({ phase := .crashed, fw, kernel := k } : FwdState))
          | (cs, _, reply, fw, k) => (cs, reply, { phase, fw, kernel := k })).1
        (match handleMessageRun conf fw k rx now ok with
          | (cs, .panic, _, fw, k) => (cs, (none : Option FwMessage), ({ phase := .crashed, fw, kernel := k } : FwdState))
          | (cs, _, reply, fw, k) => (cs, reply, { phase, fw, kernel := k })).2.2 := by
    intro hph
    unfold handleMessageRun
    cases hd : fwdDecide conf rx with
    | silent => exact requestRun_same _ rx
    | nack => exact requestRun_same _ rx
    | openPort addr p =>
      obtain ⟨m, t, port, rfl, h2, h3, h4, rfl, h6, h7, h8⟩ := fwdDecide_open hd
      have hask : ∀ now ok, AsksToOpen conf (.request (.msg m) now ok) := by
        intro now ok
        refine ⟨m, now, ok, addr, t, port, rfl, h2, h3, h4, ?_, ?_, ?_, ?_, mem_of_resourceIdByPort h7, h8⟩ <;>
          intro ha <;> subst ha <;> simp [addrCheck] at h6
      obtain ⟨g1, g2, g3, g4, g5⟩ := openPortRun_children hn fw k now addr (selection t port) ok
      dsimp only
      generalize openPortRun conf fw k now addr (selection t port) ok = q at *
      obtain ⟨cs, r, fw', k'⟩ := q
      have ho : ∀ ch ∈ cs, ∃ m' addr' t' port', FwRecvOut.msg m = .msg m' ∧ m'.getAddr = some addr' ∧ m'.getPort = some (t', port') ∧
          (∀ l, ((addr', selection t' port'), l) ∉ fw.leases) ∧ ∀ pkt, TextOpens ch.stdin pkt ↔ covers addr' (selection t' port') pkt :=
        fun ch hc => ⟨m, addr, t, port, rfl, h3, h4, g4 (List.ne_nil_of_mem hc), (g1 ch hc).2⟩
      cases r with
      | ok u => exact ⟨fun ch hc => (g1 ch hc).1, g2, g3, fun _ => hask, ho, fun h => h, g5⟩
      | err => exact ⟨fun ch hc => (g1 ch hc).1, g2, g3, fun _ => hask, ho, fun h => h, g5⟩
      | panic => exact ⟨fun ch hc => (g1 ch hc).1, g2, g3, fun _ => hask, ho, fun _ => hph, g5⟩
  cases phase with
  | running => exact main (.inl rfl)
  | stopping => exact main (.inr rfl)
  | stopped => exact requestRun_same _ rx
  | crashed => exact requestRun_same _ rx

/-- Is the daemon alive, and will it therefore run `nft` once more when it stops? -/
def pendingStop (s : FwdState) : Nat :=
  match s.phase with
  | .running | .stopping => 1
  | _ => 0

theorem stepRun_proper {conf : Config} {n : NftNames} (hn : ChainOf conf n) (s : FwdState) (op : FwdOp) :
    ∀ ch ∈ (stepRun conf s op).1, ProperChild conf n ch := by
  cases op with
  | request rx now ok => exact (stepRun_request hn s rx now ok).proper
  | foreign _ => simp [stepRun]
  | reorder _ => simp [stepRun]
  | terminate ok =>
    obtain ⟨phase, fw, k⟩ := s
    have hd : ∀ ch ∈ (doShutdownRun conf fw k ok).1, ProperChild conf n ch := by
      unfold doShutdownRun
      split
      · simp
      · exact (fullRebuildRun_children hn _ k ok).1
    cases phase <;> simp only [stepRun] <;> try simp
    all_goals
      generalize doShutdownRun conf fw k ok = q at *
      obtain ⟨cs, r, fw', k'⟩ := q
      cases r <;> exact hd
  | maintain now env =>
    obtain ⟨phase, fw, k⟩ := s
    have hd := (maintainRun_children hn fw k now env).1
    cases phase <;> simp only [stepRun] <;> try simp
    generalize maintainRun conf fw k now env = q at *
    obtain ⟨cs, r, fw', k'⟩ := q
    cases r <;> exact hd

open Classical in
theorem stepRun_bound {conf : Config} {n : NftNames} (hn : ChainOf conf n) (s : FwdState) (op : FwdOp) (hf : OpFair n s op) :
    (stepRun conf s op).1.length + 3 * (stepRun conf s op).2.2.fw.leases.length + pendingStop (stepRun conf s op).2.2 ≤
      3 * s.fw.leases.length + pendingStop s + (if AsksToOpen conf op then 4 else 0) := by
  cases op with
  | request rx now ok =>
    obtain ⟨h1, h2, h3, h4, _, h6, _⟩ := stepRun_request hn s rx now ok
    generalize stepRun conf s (.request rx now ok) = q at *
    have hp : pendingStop q.2.2 ≤ pendingStop s := by
      unfold pendingStop
      revert h6
      cases q.2.2.phase <;> cases s.phase <;> simp
    split
    · omega
    · rename_i hna
      have h5 : ¬ (q.1 ≠ [] ∨ q.2.2.fw.leases.length ≠ s.fw.leases.length) := fun h => hna (h4 h now ok)
      rw [not_or] at h5
      have e1 : q.1 = [] := Classical.not_not.1 h5.1
      have e2 := Classical.not_not.1 h5.2
      rw [e1, e2, List.length_nil]
      omega
  | foreign _ => simp only [stepRun, pendingStop, List.length_nil]; omega
  | reorder l =>
    have := (hf : l.Perm s.fw.leases).length_eq
    simp only [stepRun, pendingStop, List.length_nil]; omega
  | terminate ok =>
    refine Nat.le_trans ?_ (Nat.le_add_right _ _)
    obtain ⟨phase, fw, k⟩ := s
    have hd : (doShutdownRun conf fw k ok).1.length ≤ 1 ∧ (doShutdownRun conf fw k ok).2.2.1.leases.length ≤ fw.leases.length := by
      unfold doShutdownRun
      split
      · simp
      · exact ⟨(fullRebuildRun_children hn _ k ok).2.1, by simp⟩
    cases phase <;> simp only [stepRun, pendingStop]
    all_goals try (simp; done)
    all_goals
      generalize doShutdownRun conf fw k ok = q at *
      obtain ⟨cs, r, fw', k'⟩ := q
      dsimp only at hd
      cases r <;> dsimp only <;> omega
  | maintain now env =>
    refine Nat.le_trans ?_ (Nat.le_add_right _ _)
    obtain ⟨phase, fw, k⟩ := s
    have hd := (maintainRun_children hn fw k now env).2.1
    cases phase <;> simp only [stepRun, pendingStop]
    all_goals try (simp; done)
    generalize maintainRun conf fw k now env = q at *
    obtain ⟨cs, r, fw', k'⟩ := q
    dsimp only at hd
    cases r <;> dsimp only <;> omega

theorem startRun_state (conf : Config) (k : Kernel) (helpOk nftOk : Bool) :
    (startRun conf k helpOk nftOk).2 = if helpOk then fwdStart conf k nftOk else none := by
  have h := newRun_snd conf k helpOk nftOk
  unfold startRun fwdStart
  generalize newRun conf k helpOk nftOk = q at *
  obtain ⟨cs, r, k'⟩ := q
  dsimp only at h
  cases helpOk
  · simp only [Bool.false_eq_true, if_false, Prod.mk.injEq] at h
    obtain ⟨rfl, _⟩ := h
    rfl
  · simp only [if_true] at h
    rw [← h]
    cases r <;> rfl

theorem startRun_children {conf : Config} {n : NftNames} (hn : ChainOf conf n) (k : Kernel) (helpOk nftOk : Bool) :
    (∀ ch ∈ (startRun conf k helpOk nftOk).1, ProperChild conf n ch) ∧ (startRun conf k helpOk nftOk).1.length ≤ 2 := by
  have hd : (∀ ch ∈ (newRun conf k helpOk nftOk).1, ProperChild conf n ch) ∧ (newRun conf k helpOk nftOk).1.length ≤ 2 := by
    unfold newRun
    split
    · refine ⟨?_, by simp⟩
      intro ch hc
      cases List.mem_singleton.1 hc
      exact properChild_help conf n
    · obtain ⟨h1, h2, _⟩ := fullRebuildRun_children hn { leases := [], shutdown := false } k nftOk
      dsimp only
      generalize fullRebuildRun conf { leases := [], shutdown := false } k nftOk = q at *
      obtain ⟨cs, r, k'⟩ := q
      have h3 : (∀ ch ∈ helpChild conf :: cs, ProperChild conf n ch) ∧ (helpChild conf :: cs).length ≤ 2 := by
        refine ⟨fun ch hc => ?_, by rw [List.length_cons]; exact Nat.succ_le_succ h2⟩
        rcases List.mem_cons.1 hc with rfl | hc
        · exact properChild_help conf n
        · exact h1 ch hc
      cases r <;> exact h3
  unfold startRun
  generalize newRun conf k helpOk nftOk = q at *
  obtain ⟨cs, r, k'⟩ := q
  cases r <;> exact hd

open Classical in
theorem childrenRun_bound {conf : Config} {n : NftNames} (hn : ChainOf conf n) (ops : List FwdOp) (s : FwdState) (hf : Fair conf n s ops) :
    (childrenRun conf s ops).1.length ≤ 3 * s.fw.leases.length + pendingStop s + 4 * openRequests conf ops := by
  induction ops generalizing s with
  | nil => simp [childrenRun]
  | cons op rest ih =>
    have h1 := stepRun_bound hn s op hf.1
    have h2 := ih (stepRun conf s op).2.2 (by rw [stepRun_snd]; exact hf.2)
    simp only [childrenRun, List.length_append]
    have h3 : openRequests conf (op :: rest) = (if AsksToOpen conf op then 1 else 0) + openRequests conf rest := by
      unfold openRequests
      rw [List.filter_cons]
      by_cases h : AsksToOpen conf op <;> simp [h]; omega
    rw [h3]
    by_cases h : AsksToOpen conf op <;> simp only [h, if_true, if_false] at h1 ⊢ <;> omega

/-! ## The properties -/

/-- The functions that list the children do what letmeinfwd does: same answers, same states, same ruleset. The start fails if the test run does. -/
theorem C128_same_daemon (conf : Config) (k : Kernel) (helpOk nftOk : Bool) (s : FwdState) (ops : List FwdOp) :
    (startRun conf k helpOk nftOk).2 = (if helpOk then fwdStart conf k nftOk else none) ∧ (childrenRun conf s ops).2 = (fwdRun conf s ops).2 ∧
      ∀ op, (stepRun conf s op).2 = fwdStep conf s op := by
  refine ⟨startRun_state conf k helpOk nftOk, ?_, stepRun_snd conf s⟩
  induction ops generalizing s with
  | nil => rfl
  | cons op rest ih =>
    simp only [childrenRun, fwdRun]
    rw [ih, stepRun_snd]

/-- **C128**. Whatever happens to letmeinfwd, from its start on: every program it starts is the configured one, with one of three fixed command lines. Only the
standard input of `nft -j -f -` depends on what happened, and that is about the configured chain. So nothing that letmeind, a peer or another user of the firewall
says can become part of a command line. -/
theorem C128_command_lines {conf : Config} {n : NftNames} (hn : ChainOf conf n) (k0 : Kernel) (helpOk nftOk : Bool) (s : FwdState) (ops : List FwdOp) :
    ∀ ch ∈ (startRun conf k0 helpOk nftOk).1 ++ (childrenRun conf s ops).1, ProperChild conf n ch := by
  intro ch hc
  rcases List.mem_append.1 hc with hc | hc
  · exact (startRun_children hn k0 helpOk nftOk).1 ch hc
  · induction ops generalizing s with
    | nil => simp [childrenRun] at hc
    | cons op rest ih =>
      simp only [childrenRun, List.mem_append] at hc
      rcases hc with hc | hc
      · exact stepRun_proper hn s op ch hc
      · exact ih _ (List.mem_append.2 (.inr hc)) hc

/-- **C128** (how often). From the start to any later time letmeinfwd has started at most three programs, and four more for each request to open a configured port. -/
theorem C128_how_often {conf : Config} {n : NftNames} (hn : ChainOf conf n) {k0 : Kernel} {helpOk nftOk : Bool} {cs : List Child} {s0 : FwdState}
    (h0 : startRun conf k0 helpOk nftOk = (cs, some s0)) (ops : List FwdOp) (hf : Fair conf n s0 ops) :
    cs.length + (childrenRun conf s0 ops).1.length ≤ 3 + 4 * openRequests conf ops := by
  have h1 := (startRun_children hn k0 helpOk nftOk).2
  have h2 := startRun_state conf k0 helpOk nftOk
  rw [h0] at h1 h2
  have h3 := childrenRun_bound hn ops s0 hf
  have h4 : s0.fw.leases = [] ∧ s0.phase = .running := by
    cases helpOk
    · cases h2
    · simp only [if_true] at h2
      unfold fwdStart NftFirewall.new at h2
      dsimp only at h2
      generalize fullRebuild conf { leases := [], shutdown := false } k0 nftOk = q at h2
      obtain ⟨r, k'⟩ := q
      cases r with
      | ok u => dsimp only at h2; injection h2 with h2; subst h2; exact ⟨rfl, rfl⟩
      | err => cases h2
      | panic => cases h2
  rw [h4.1] at h3
  simp only [pendingStop, h4.2, List.length_nil] at h3
  dsimp only at h1
  omega

/-- **C128** (when). A request makes letmeinfwd start `nft` only if it asks to open a configured port that is not open yet for the address, then once, and what `nft`
reads opens what was asked for and nothing else. Maintenance does only if a lease has expired. -/
theorem C128_only_if_needed {conf : Config} {n : NftNames} (hn : ChainOf conf n) (s : FwdState) :
    (∀ rx now ok, (stepRun conf s (.request rx now ok)).1 ≠ [] → AsksToOpen conf (.request rx now ok) ∧
      ∃ ch m addr t port, (stepRun conf s (.request rx now ok)).1 = [ch] ∧ rx = .msg m ∧ m.getAddr = some addr ∧ m.getPort = some (t, port) ∧
        (∀ l, ((addr, selection t port), l) ∉ s.fw.leases) ∧ ∀ pkt, TextOpens ch.stdin pkt ↔ covers addr (selection t port) pkt) ∧
    (∀ now env, (stepRun conf s (.maintain now env)).1 ≠ [] → ∃ e ∈ s.fw.leases, e.2.timeout ≤ now) := by
  refine ⟨fun rx now ok h => ?_, fun now env h => ?_⟩
  · have hr := stepRun_request hn s rx now ok
    refine ⟨hr.asked (.inl h) now ok, ?_⟩
    have h1 := hr.one
    have h2 := hr.opens
    cases hc : (stepRun conf s (.request rx now ok)).1 with
    | nil => exact absurd hc h
    | cons ch rest =>
      rw [hc] at h1 h2
      cases rest with
      | nil =>
        obtain ⟨m, addr, t, port, h3⟩ := h2 ch (List.mem_singleton.2 rfl)
        exact ⟨ch, m, addr, t, port, rfl, h3⟩
      | cons _ _ => simp at h1
  · obtain ⟨phase, fw, k⟩ := s
    have hd := (maintainRun_children hn fw k now env).2.2.1
    cases phase with
    | running =>
      refine hd fun he => h ?_
      simp only [stepRun]
      generalize maintainRun conf fw k now env = q at *
      obtain ⟨cs, r, fw', k'⟩ := q
      dsimp only at he
      subst he
      cases r <;> rfl
    | stopping => exact absurd rfl h
    | stopped => exact absurd rfl h
    | crashed => exact absurd rfl h

/-- **C128** (no other way). letmeinfwd changes the ruleset through these programs only: an operation that starts none leaves it alone, and if nobody else changes
it meanwhile, then a change is what one of the programs has read. -/
theorem C128_no_other_way {conf : Config} {n : NftNames} (hn : ChainOf conf n) (s : FwdState) (op : FwdOp) :
    ((∀ k, op ≠ .foreign k) → (stepRun conf s op).1 = [] → (fwdStep conf s op).2.kernel = s.kernel) ∧
    (AloneWithNft op → (fwdStep conf s op).2.kernel = s.kernel ∨
      ∃ ch ∈ (stepRun conf s op).1, ∃ cmds, readNft ch.stdin = some cmds ∧ applyCmds s.kernel cmds = some (fwdStep conf s op).2.kernel) := by
  rw [← stepRun_snd]
  have triv : ∀ {cs : List Child} {k' k : Kernel}, (k' = k ∨ ∃ ch ∈ cs, ∃ cmds, readNft ch.stdin = some cmds ∧ applyCmds k cmds = some k') →
      cs = [] → k' = k := by
    intro cs k' k h he
    rcases h with h | ⟨ch, hc, _⟩
    · exact h
    · rw [he] at hc; cases hc
  cases op with
  | request rx now ok =>
    have h := (stepRun_request hn s rx now ok).kernel
    exact ⟨fun _ => triv h, fun _ => h⟩
  | foreign k => exact ⟨fun h => absurd rfl (h k), fun h => h.elim⟩
  | reorder l => exact ⟨fun _ _ => rfl, fun _ => .inl rfl⟩
  | terminate ok =>
    obtain ⟨phase, fw, k⟩ := s
    have hd : (doShutdownRun conf fw k ok).2.2.2 = k ∨ ∃ ch ∈ (doShutdownRun conf fw k ok).1, ∃ cmds, readNft ch.stdin = some cmds ∧
        applyCmds k cmds = some (doShutdownRun conf fw k ok).2.2.2 := by
      unfold doShutdownRun
      split
      · exact .inl rfl
      · exact (fullRebuildRun_children hn _ k ok).2.2
    cases phase <;> unfold stepRun <;> dsimp only
    all_goals try exact ⟨fun _ _ => rfl, fun _ => .inl rfl⟩
    all_goals
      generalize doShutdownRun conf fw k ok = q at *
      obtain ⟨cs, r, fw', k'⟩ := q
      cases r <;> exact ⟨fun _ => triv hd, fun _ => hd⟩
  | maintain now env =>
    obtain ⟨phase, fw, k⟩ := s
    obtain ⟨_, _, _, g1, g2⟩ := maintainRun_children hn fw k now env
    cases phase <;> unfold stepRun <;> dsimp only
    all_goals try exact ⟨fun _ _ => rfl, fun _ => .inl rfl⟩
    generalize maintainRun conf fw k now env = q at *
    obtain ⟨cs, r, fw', k'⟩ := q
    cases r <;> exact ⟨fun _ => g1, fun h => g2 h.1 h.2⟩

/-- **C128** (the file). An absolute path as `exe` is the file that runs, whatever is in `$PATH` and elsewhere. A name without a slash is looked for in the
directories of `$PATH`, and the first hit runs. -/
theorem C128_which_file (runnable : Str → Bool) (path : Option Str) (exe : Str) (h0 : '\x00' ∉ exe) :
    (exe.head? = some '/' → execFile runnable path exe = if runnable exe then some exe else none) ∧
    ('/' ∉ exe → exe ≠ [] → ∀ f, execFile runnable path exe = some f ↔
      ∃ before d after, splitOn ':' (path.getD "/bin:/usr/bin".toList) = before ++ d :: after ∧ f = (if d = [] then exe else d ++ "/".toList ++ exe) ∧
        runnable f = true ∧ ∀ d' ∈ before, runnable (if d' = [] then exe else d' ++ "/".toList ++ exe) = false) := by
  refine ⟨fun h => ?_, fun hs he f => ?_⟩
  · have hm : '/' ∈ exe := List.mem_of_head? h
    have he : ¬ (exe = [] ∨ '\x00' ∈ exe) := by
      rintro (rfl | h)
      · cases hm
      · exact h0 h
    unfold execFile execTries
    rw [if_neg he, if_pos hm]
    cases hr : runnable exe <;> simp [hr]
  · have he : ¬ (exe = [] ∨ '\x00' ∈ exe) := by
      rintro (rfl | h)
      · exact he rfl
      · exact h0 h
    unfold execFile execTries
    rw [if_neg he, if_neg hs]
    generalize splitOn ':' (path.getD "/bin:/usr/bin".toList) = dirs
    have hg : ∀ d : Str, (if d = [] then exe else d ++ "/".toList ++ exe) = if d = [] then exe else d ++ '/' :: exe := by
      intro d
      split
      · rfl
      · simp
    simp only [hg]
    rw [List.find?_map, Option.map_eq_some_iff]
    constructor
    · rintro ⟨d, hd, rfl⟩
      obtain ⟨h1, before, after, h2, h3⟩ := List.find?_eq_some_iff_append.1 hd
      exact ⟨before, d, after, h2, rfl, h1, fun d' hd' => by simpa using h3 d' hd'⟩
    · rintro ⟨before, d, after, h2, rfl, h1, h3⟩
      exact ⟨d, List.find?_eq_some_iff_append.2 ⟨h1, before, after, h2, fun d' hd' => by simpa using h3 d' hd'⟩, rfl⟩

/-- **C128** (from the file to the program). A server configuration is loaded from a file that says `exe = …` with an absolute path. Then, whatever happens, no other
file than this one is run by letmeinfwd, whatever the environment and the other files of the system are. -/
theorem C128_configured {f64 : F64Secs} {order : IterOrder} (ho : IsOrder order) {path : Str} {file : FileContent} {d : Doc} (hd : FileDoc file d) {conf : Config}
    (hl : (Config.new .Server).load f64 order path file = (.ok (), conf)) {v x : Str} (hv : Setting d "NFTABLES".toList "exe".toList v) (hx : Trimmed v x)
    (habs : x.head? = some '/') {n : NftNames} (hn : ChainOf conf n) (k0 : Kernel) (helpOk nftOk : Bool) (s : FwdState) (ops : List FwdOp) :
    ∀ ch ∈ (startRun conf k0 helpOk nftOk).1 ++ (childrenRun conf s ops).1, ∀ runnable envPath f, execFile runnable envPath ch.program = some f → f = x := by
  intro ch hc runnable envPath f hf
  have hp := (C128_command_lines hn k0 helpOk nftOk s ops ch hc).program
  obtain ⟨hc1, hvar, _⟩ := C54_loaded_is_described ho hd hl
  have hnd : (d.map (·.1)).Nodup := by
    obtain ⟨_, _, _, _, _, h⟩ := hd
    exact h
  have he := hc1.nftExe
  rw [hvar.trans (rfl : _ = ConfigVariant.Server)] at he
  have hex : conf.nftExe = x := by
    rw [if_pos rfl] at he
    rcases he with ⟨w, hw, ht⟩ | ⟨hno, _⟩
    · rw [setting_unique hnd hw hv] at ht
      exact trimmed_unique' ht hx
    · exact absurd ⟨v, hv⟩ hno
  rw [hp, hex] at hf
  by_cases h0 : '\x00' ∈ x
  · unfold execFile execTries at hf
    rw [if_pos (.inr h0)] at hf
    cases hf
  · rw [(C128_which_file runnable envPath x h0).1 habs] at hf
    split at hf
    · injection hf with hf; exact hf.symm
    · cases hf

/-- **C128** (the values of `exe`). The paths that a file can name are exactly the texts on one line without white space around them. -/
theorem C128_values (f64 : F64Secs) (p : Str) :
    (∃ order path file c, IsOrder order ∧ (Config.new .Server).load f64 order path file = (.ok (), c) ∧ c.nftExe = p) ↔ PlainText p := by
  constructor
  · rintro ⟨order, path, file, c, ho, hl, rfl⟩
    rcases load_ok_iff.1 hl with ⟨ini, c1, h1, _⟩ | ⟨_, h2, rfl⟩
    · obtain ⟨d, hd, _⟩ := newFromFile_ok h1
      obtain ⟨h3, h4, _⟩ := C54_loaded_is_described ho hd hl
      obtain ⟨s, _, hs⟩ := hd
      exact ((described_valid hs h3).server h4).2.1
    · exact absurd rfl h2
  · intro hp
    have hv : ValidConf f64 { Config.new .Server with nftExe := p } := by
      refine ⟨.inl rfl, seconds_timeOf f64 (n := 5) (by decide), ?_, ?_, ?_, fun _ => ⟨rfl, hp, .head _, ⟨?_, ?_, ?_⟩, ⟨?_, ?_, ?_⟩, seconds_timeOf f64 (n := 600) (by decide)⟩, ?_⟩
      · intro u k hu; cases hu
      · intro u k hu; cases hu
      · intro u _ k _ hu; cases hu
      all_goals first | (intro h; cases h; done) | (intro c h; cases h)
    obtain ⟨text, ht⟩ := (C93_expressible f64 _ (by exact List.nodup_nil) (by exact List.nodup_nil)).2 hv
    obtain ⟨c', h1, h2⟩ := ht id id_order []
    exact ⟨id, [], .text text, c', id_order, h1, h2.nftExe⟩

/-! ### The hypotheses are met -/

/-- The configuration of the example history with an absolute path, and the running daemon. -/
def runsConf : Config := { fwConf with nftExe := "/usr/sbin/nft".toList }

def runsStarted : FwdState := ((startRun runsConf fwKernel true true).2).getD ⟨.crashed, ⟨[], false⟩, fwKernel⟩

/-- C128_how_often: the start runs `nft` twice; in the history of seven operations the renewal, the refused request and the maintenance without expired leases
run nothing. -/
example : ChainOf runsConf fwNames ∧ startRun runsConf fwKernel true true = ((startRun runsConf fwKernel true true).1, some runsStarted) ∧
    (startRun runsConf fwKernel true true).1.map (·.args) = [["--help".toList], ["-j".toList, "-f".toList, "-".toList]] ∧
    Fair runsConf fwNames runsStarted fwHistory :=
  ⟨⟨by decide, rfl, rfl, by decide, by decide⟩, by
    have h : (startRun runsConf fwKernel true true).2.isSome = true := by decide +kernel
    unfold runsStarted
    generalize startRun runsConf fwKernel true true = q at *
    obtain ⟨cs, _ | s⟩ := q
    · cases h
    · rfl, by decide +kernel,
    ⟨⟨fun _ => ⟨rfl, Nat.le_refl _⟩, fun _ => ⟨rfl, Nat.le_refl _⟩⟩, trivial, trivial, trivial, trivial, trivial,
      ⟨fun _ => ⟨rfl, Nat.le_refl _⟩, fun _ => ⟨rfl, Nat.le_refl _⟩⟩, trivial⟩⟩

example : (childrenRun runsConf runsStarted fwHistory).1.map (fun ch => (String.ofList ch.program, ch.args.map String.ofList)) =
    [("/usr/sbin/nft", ["-j", "-f", "-"]), ("/usr/sbin/nft", ["-j", "-f", "-"]), ("/usr/sbin/nft", ["-j", "-f", "-"]),
     ("/usr/sbin/nft", ["-j", "list", "ruleset"]), ("/usr/sbin/nft", ["-j", "-f", "-"]), ("/usr/sbin/nft", ["-j", "-f", "-"])] := by decide +kernel

/-- C128_only_if_needed, C128_no_other_way: the second operation of the history runs one program, which changes the ruleset. -/
example : (stepRun runsConf runsStarted (.request (.msg (FwMessage.newOpen examplePeer .Tcp 22)) (1 * second) true)).1 ≠ [] ∧
    (fwdStep runsConf runsStarted (.request (.msg (FwMessage.newOpen examplePeer .Tcp 22)) (1 * second) true)).2.kernel.rules ≠ runsStarted.kernel.rules ∧
    AloneWithNft (.request (.msg (FwMessage.newOpen examplePeer .Tcp 22)) (1 * second) true) := ⟨by decide +kernel, by decide +kernel, trivial⟩

/-- C128_which_file: a forged `nft` in the first directory of `$PATH` is run for the name, and not for the path. -/
example : execFile (fun f => f = "/tmp/nft".toList ∨ f = "/usr/sbin/nft".toList) (some "/tmp:/usr/sbin".toList) "nft".toList = some "/tmp/nft".toList ∧
    execFile (fun f => f = "/tmp/nft".toList ∨ f = "/usr/sbin/nft".toList) (some "/tmp:/usr/sbin".toList) "/usr/sbin/nft".toList =
      some "/usr/sbin/nft".toList := by decide +kernel

/-- C128_configured: a file with an absolute path. -/
def exeText : Str := "[NFTABLES]\nexe = /usr/sbin/nft\nfamily=inet\ntable=filter\nchain-input=LETMEIN-INPUT\n".toList

def exeDoc : Doc := [("NFTABLES".toList, [("exe".toList, " /usr/sbin/nft".toList), ("family".toList, "inet".toList), ("table".toList, "filter".toList),
  ("chain-input".toList, "LETMEIN-INPUT".toList)])]

theorem exe_doc : FileDoc (.text exeText) exeDoc := by
  refine ⟨_, rfl, _, textLines_iff.2 rfl, ?_, by decide⟩
  have e : lines exeText = "[NFTABLES]".toList :: ["exe = /usr/sbin/nft".toList, "family=inet".toList, "table=filter".toList,
    "chain-input=LETMEIN-INPUT".toList] ++ [] := by decide +kernel
  rw [e]
  refine .sect ⟨[], [], rfl, by decide, by decide, by decide⟩ (.assign ⟨[], [' '], rfl, by decide, by decide, by decide, ⟨'e', by decide⟩, ⟨'e', by decide⟩⟩
    (.assign ⟨[], [], rfl, by decide, by decide, by decide, ⟨'f', by decide⟩, ⟨'y', by decide⟩⟩
    (.assign ⟨[], [], rfl, by decide, by decide, by decide, ⟨'t', by decide⟩, ⟨'e', by decide⟩⟩
    (.assign ⟨[], [], rfl, by decide, by decide, by decide, ⟨'c', by decide⟩, ⟨'t', by decide⟩⟩ .nil)))) .nil

example : ∃ conf, (Config.new .Server).load noF64 id [] (.text exeText) = (.ok (), conf) ∧ ChainOf conf fwNames ∧
    Setting exeDoc "NFTABLES".toList "exe".toList " /usr/sbin/nft".toList ∧ Trimmed " /usr/sbin/nft".toList "/usr/sbin/nft".toList ∧
    "/usr/sbin/nft".toList.head? = some '/' ∧ (startRun conf fwKernel true true).1.length = 2 := by
  have h : ((Config.new .Server).load noF64 id [] (.text exeText)).1 = .ok () := by decide +kernel
  refine ⟨((Config.new .Server).load noF64 id [] (.text exeText)).2, by rw [← h], ⟨by decide +kernel, by decide +kernel, by decide +kernel, by decide, by decide⟩,
    ⟨_, .head _, [], _, rfl, by decide⟩, ⟨⟨[' '], [], by decide, by decide, by decide⟩, by decide, by decide⟩, by decide, by decide +kernel⟩

/-- C128_values: also a path that ends with a backslash, which the documentation excludes. -/
example : PlainText "/opt/nft\\".toList ∧ ¬ PlainText " nft".toList :=
  ⟨⟨by decide, by decide, by decide⟩, fun h => absurd (h.first ' ' rfl) (by decide)⟩

end Letmein.Props
