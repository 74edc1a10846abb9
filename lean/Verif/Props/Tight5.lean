import Verif.Props.Startup
import Verif.Props.Daemon

/-!
# Further theorems found necessary by wrong programs (5)
-/

namespace Letmein.Props

open Letmein Prog Spec

/-- **C76** (the start of letmeinfwd with any way to get its socket). The start ends in a panic exactly if the user database and the firewall are all right and then getting
the socket panics, or everything is there but the limit of connections is more than a semaphore can count. A firewall that does not answer is an error, never a panic. -/
theorem C76_life_iff (testMode : Bool) (passwd group : Option Str) (conf : Config) (k : Kernel) (nftOk : Bool) (limit : Nat)
    (listener : UInt32 × UInt32 → R UnixListener) :
    (lifeStart testMode passwd group conf k nftOk limit listener).2 = .panic ↔
      ∃ ids fw, readEtcPasswd testMode passwd group = .ok ids ∧ (NftFirewall.new conf k nftOk).1 = .ok fw ∧
        (listener ids = .panic ∨ (∃ l, listener ids = .ok l) ∧ 2305843009213693951 < limit) := by
  have hf := C49_start_no_panic conf k nftOk
  have hp := readEtcPasswd_not_panic testMode passwd group
  have hm : ∀ n : Nat, (n > MAX_PERMITS) ↔ 2305843009213693951 < n := fun n => by unfold MAX_PERMITS; omega
  unfold lifeStart
  generalize readEtcPasswd testMode passwd group = r1 at *
  generalize NftFirewall.new conf k nftOk = r2 at *
  obtain ⟨r2, k'⟩ := r2
  cases r1 with
  | panic => exact absurd rfl hp
  | err => simp
  | ok ids =>
    cases r2 with
    | panic => exact absurd rfl hf
    | err => simp
    | ok fw =>
      cases hl : listener ids with
      | panic => simp [hl]
      | err => simp [hl]
      | ok l =>
        simp only [hl, hm]
        split
        · rename_i h; simp [hl, h]
        · rename_i h; simp [hl, h]

/-- **C76** (an unusable firewall). If the firewall cannot be initialized, then letmeinfwd's start ends with an error: it neither runs nor panics. -/
theorem C76_no_firewall (testMode : Bool) (passwd group : Option Str) (conf : Config) (k : Kernel) (nftOk : Bool) (limit : Nat)
    (listener : UInt32 × UInt32 → R UnixListener) (h : ∀ fw, (NftFirewall.new conf k nftOk).1 ≠ .ok fw) :
    (lifeStart testMode passwd group conf k nftOk limit listener).2 = .err := by
  have hp := readEtcPasswd_not_panic testMode passwd group
  have hf := C49_start_no_panic conf k nftOk
  unfold lifeStart
  generalize readEtcPasswd testMode passwd group = r1 at *
  generalize NftFirewall.new conf k nftOk = r2 at *
  obtain ⟨r2, k'⟩ := r2
  cases r1 with
  | panic => exact absurd rfl hp
  | err => rfl
  | ok ids =>
    cases r2 with
    | panic => exact absurd rfl hf
    | err => rfl
    | ok fw => exact absurd rfl (h fw)

/-- nft does not work: the start fails; nft works but nobody could accept so many connections: the start panics. -/
example : (lifeStart true none none fwConf ⟨[], 1⟩ false 8 (fun _ => .ok (.systemd 3))).2 = .err ∧
    (lifeStart true none none fwConf fwKernel true (2 ^ 61) (fun _ => .ok (.systemd 3))).2 = .panic := by
  constructor
  · refine C76_no_firewall _ _ _ _ _ _ _ _ fun fw => ?_
    cases h : (NftFirewall.new fwConf ⟨[], 1⟩ false).1 with
    | ok x => exact absurd h (by
        have : (match (NftFirewall.new fwConf ⟨[], 1⟩ false).1 with | .ok _ => true | _ => false) = false := by decide +kernel
        intro h
        rw [h] at this
        cases this)
    | err => intro h; cases h
    | panic => intro h; cases h
  · refine (C76_life_iff _ _ _ _ _ _ _ _).2 ?_
    cases h : (NftFirewall.new fwConf fwKernel true).1 with
    | ok fw =>
      cases h2 : readEtcPasswd true none none with
      | ok ids => exact ⟨ids, fw, rfl, rfl, .inr ⟨⟨_, rfl⟩, by decide⟩⟩
      | err => exact absurd h2 (by decide)
      | panic => exact absurd h2 (by decide)
    | err => exact absurd h (by
        have : (match (NftFirewall.new fwConf fwKernel true).1 with | .ok _ => true | _ => false) = true := by decide +kernel
        intro h
        rw [h] at this
        cases this)
    | panic => exact absurd h (C49_start_no_panic _ _ _)

end Letmein.Props
