import Verif.Props.Conf
import Verif.Lemmas.Float

/-!
# C88: configured times are what the file says

With the model of `str::parse::<f64>` and `Duration::from_secs_f64` the times of the configuration are no longer left to a parameter:
which texts are times, and how far the time is from the number written.
-/

namespace Letmein.Props

open Letmein Prog Spec

/-- Which texts are accepted as times: whole numbers of seconds below `2^32`, and decimal numbers in the range. -/
def TimesRead : Prop :=
  ∀ s, (∃ d, parseDuration f64Secs s = .ok d) ↔
    (∃ n, NatText s n ∧ n < 2 ^ 32) ∨ ∃ t neg m e, Trimmed s t ∧ DecimalText t neg m e ∧ TimeInRange neg m e

theorem C88_accepted : TimesRead := by
  intro s
  constructor
  · rintro ⟨d, h⟩
    rw [parseDuration_iff] at h
    rcases h with ⟨n, hn, hlt, _⟩ | ⟨_, t, ht, hd⟩
    · exact .inl ⟨n, hn, hlt⟩
    · by_cases hx : ∃ neg m e, DecimalText t neg m e
      · obtain ⟨neg, m, e, hx⟩ := hx
        exact .inr ⟨t, neg, m, e, ht, hx, ((f64Secs_some_iff hx).1 hd).1⟩
      · rw [f64Secs_none hx] at hd; cases hd
  · rintro (⟨n, hn, hlt⟩ | ⟨t, neg, m, e, ht, hx, hr⟩)
    · exact ⟨_, parseDuration_iff.2 (.inl ⟨n, hn, hlt, rfl⟩)⟩
    · exact ⟨_, (duration_decimal ht hx).2 ((f64Secs_some_iff hx).2 ⟨hr, rfl⟩)⟩

/-- What the accepted texts mean: whole seconds, or the nearest nanosecond of the nearest double (of two equally near ones the even one). -/
theorem C88_meaning {s : Str} {d : Duration} : parseDuration f64Secs s = .ok d ↔
    (∃ n, NatText s n ∧ n < 2 ^ 32 ∧ d = n * 1000000000) ∨ ∃ t neg m e, Trimmed s t ∧ DecimalText t neg m e ∧ DecimalTime neg m e d := by
  constructor
  · intro h
    by_cases hx : ∃ t neg m e, Trimmed s t ∧ DecimalText t neg m e
    · obtain ⟨t, neg, m, e, ht, hx⟩ := hx
      exact .inr ⟨t, neg, m, e, ht, hx, (f64Secs_iff hx).1 ((duration_decimal ht hx).1 h)⟩
    · rw [parseDuration_iff] at h
      rcases h with h | ⟨_, t, ht, hd⟩
      · exact .inl h
      · rw [f64Secs_none fun ⟨neg, m, e, h⟩ => hx ⟨t, neg, m, e, ht, h⟩] at hd
        cases hd
  · rintro (⟨n, hn, hlt, rfl⟩ | ⟨t, neg, m, e, ht, hx, hd⟩)
    · exact parseDuration_iff.2 (.inl ⟨n, hn, hlt, rfl⟩)
    · exact (duration_decimal ht hx).2 ((f64Secs_iff hx).2 hd)

/-- The error is at most 239 ns, for every accepted decimal number that is not negative. -/
theorem C88_accuracy {s t : Str} {m : Nat} {e : Int} {d : Duration} (ht : Trimmed s t) (hx : DecimalText t false m e)
    (h : parseDuration f64Secs s = .ok d) :
    decNum m e * 1000000000 ≤ (d + 239) * decDen e ∧ d * decDen e ≤ decNum m e * 1000000000 + 239 * decDen e := by
  rw [duration_decimal ht hx, f64Secs_some_iff hx] at h
  obtain ⟨hr, hd⟩ := h
  unfold TimeInRange at hr
  simp only [Bool.false_eq_true, if_false] at hr hd
  rw [fromSecsF64_eq] at hd
  have := fromSecs_239 (decDen_pos e) hr
  rw [← hd] at this
  rw [Nat.add_mul]
  exact this

/-- A negative number is only accepted if it is as good as zero, and then the time is zero. -/
theorem C88_negative {s t : Str} {m : Nat} {e : Int} {d : Duration} (ht : Trimmed s t) (hx : DecimalText t true m e)
    (h : parseDuration f64Secs s = .ok d) : d = 0 ∧ decNum m e * 2 ^ 1075 ≤ decDen e := by
  rw [duration_decimal ht hx, f64Secs_some_iff hx] at h
  exact ⟨h.2, h.1⟩

/-- Below `2^23` seconds (97 days) a whole number of nanoseconds is read exactly. -/
theorem C88_exact {s t : Str} {m k : Nat} {e : Int} (ht : Trimmed s t) (hx : DecimalText t false m e)
    (hlt : decNum m e < 2 ^ 23 * decDen e) (hk : decNum m e * 1000000000 = k * decDen e) : parseDuration f64Secs s = .ok k := by
  rw [duration_decimal ht hx, f64Secs_some_iff hx]
  simp only [Bool.false_eq_true, if_false]
  rw [fromSecsF64_eq]
  refine ⟨?_, (fromSecs_exact (decDen_pos e) hlt hk).symm⟩
  unfold TimeInRange
  simp only [Bool.false_eq_true, if_false]
  generalize decNum m e = N at *
  generalize decDen e = D at *
  clear hk hx
  omega

/-- Whole seconds are exact in the whole range, however they are written (`3600`, `3600.0`, `3.6e3`). -/
theorem C88_whole {s t : Str} {m k : Nat} {e : Int} (ht : Trimmed s t) (hx : DecimalText t false m e) (hlt : k < 2 ^ 32)
    (hk : decNum m e = k * decDen e) : parseDuration f64Secs s = .ok (k * 1000000000) := by
  rw [duration_decimal ht hx, f64Secs_some_iff hx]
  refine ⟨?_, ?_⟩
  · unfold TimeInRange
    simp only [Bool.false_eq_true, if_false]
    rw [hk]
    have : k * decDen e ≤ 4294967295 * decDen e := Nat.mul_le_mul_right _ (by omega)
    generalize k * decDen e = N at *
    generalize decDen e = D at *
    omega
  · simp only [Bool.false_eq_true, if_false]
    rw [hk, Nat.mul_right_comm, round53_exact (decDen_pos e) (by omega), fromSecs_whole]

/-- A larger number is never read as a shorter time. -/
theorem C88_monotone {s s' t t' : Str} {m m' : Nat} {e e' : Int} {d d' : Duration} (ht : Trimmed s t) (hx : DecimalText t false m e)
    (ht' : Trimmed s' t') (hx' : DecimalText t' false m' e') (h : parseDuration f64Secs s = .ok d) (h' : parseDuration f64Secs s' = .ok d')
    (hle : decNum m e * decDen e' ≤ decNum m' e' * decDen e) : d ≤ d' := by
  rw [duration_decimal ht hx, f64Secs_some_iff hx] at h
  rw [duration_decimal ht' hx', f64Secs_some_iff hx'] at h'
  obtain ⟨_, hd⟩ := h
  obtain ⟨_, hd'⟩ := h'
  simp only [Bool.false_eq_true, if_false] at hd hd'
  rw [fromSecsF64_eq] at hd hd'
  rw [hd, hd']
  have hr : round53 (decNum m e * 2 ^ 1074) (decDen e) ≤ round53 (decNum m' e' * 2 ^ 1074) (decDen e') := by
    refine round53_mono_frac (decDen_pos e) (decDen_pos e') ?_
    rw [Nat.mul_right_comm, Nat.mul_right_comm _ _ (decDen e)]
    exact Nat.mul_le_mul_right _ hle
  exact roundEven_mono (Nat.two_pow_pos 1074) (Nat.mul_le_mul_right _ hr)

theorem given_setting {α : Type} {d : Doc} (hn : (d.map (·.1)).Nodup) {n o : String} {P : Str → α → Prop} {dflt x : α} {v : Str}
    (h : Given d n o P dflt x) (hv : Setting d n.toList o.toList v) : P v x := by
  rcases h with ⟨v', h1, h2⟩ | ⟨h1, _⟩
  · rw [setting_unique hn hv h1]; exact h2
  · exact absurd ⟨v, hv⟩ h1

/-- The lease time of the firewall daemon and the control timeout of a loaded configuration are what is written, up to 239 ns, and exactly
if it is a whole number of nanoseconds and less than `2^23` seconds. -/
theorem C88_configured {c c' : Config} {order : IterOrder} (ho : IsOrder order) {path : Str} {file : FileContent} {d : Doc} (hd : FileDoc file d)
    (h : c.load f64Secs order path file = (.ok (), c')) {v t : Str} {m : Nat} {e : Int} (ht : Trimmed v t) (hx : DecimalText t false m e)
    {x : Duration} (hs : (c.variant = .Server ∧ Setting d "NFTABLES".toList "timeout".toList v ∧ x = c'.nftTimeout) ∨
      (Setting d "GENERAL".toList "control-timeout".toList v ∧ x = c'.controlTimeout)) :
    (decNum m e * 1000000000 ≤ (x + 239) * decDen e ∧ x * decDen e ≤ decNum m e * 1000000000 + 239 * decDen e) ∧
    ∀ k, decNum m e < 2 ^ 23 * decDen e → decNum m e * 1000000000 = k * decDen e → x = k := by
  obtain ⟨hc, hv', _⟩ := C54_loaded_is_described ho hd h
  have hn : (d.map (·.1)).Nodup := by
    obtain ⟨ini, _, h2⟩ := newFromFile_doc hd
    exact h2.nodup
  have hp : parseDuration f64Secs v = .ok x := by
    rcases hs with ⟨hv, hs, rfl⟩ | ⟨hs, rfl⟩
    · have h3 := hc.nftTimeout
      rw [if_pos (hv'.trans hv)] at h3
      exact parseDuration_iff.2 (given_setting hn h3 hs)
    · exact parseDuration_iff.2 (given_setting hn hc.controlTimeout hs)
  refine ⟨C88_accuracy ht hx hp, fun k hlt hk => ?_⟩
  have := C88_exact ht hx hlt hk
  rw [hp] at this
  injection this

/-! ## Cases -/

theorem trimmed_of {s t : Str} (h : trim s = t) : Trimmed s t := trimmed_iff.2 h

theorem decimal_of {t : Str} {d : Decimal} (h : parseDecimal t = some d) : DecimalText t d.neg d.mant d.exp := parseDecimal_iff.1 h

/-- `0.5` is half a second. -/
example : parseDuration f64Secs " 0.5".toList = .ok 500000000 :=
  C88_exact (t := "0.5".toList) (m := 5) (e := -1) (trimmed_of (by decide +kernel)) (decimal_of (d := ⟨false, 5, -1⟩) (by decide +kernel))
    (by decide +kernel) (by decide +kernel)

/-- `0.1` is not a double; it is nevertheless read as 100 ms. -/
example : parseDuration f64Secs ".1".toList = .ok 100000000 :=
  C88_exact (t := ".1".toList) (m := 1) (e := -1) (trimmed_of (by decide +kernel)) (decimal_of (d := ⟨false, 1, -1⟩) (by decide +kernel))
    (by decide +kernel) (by decide +kernel)

/-- An hour. -/
example : parseDuration f64Secs "3.6e+3".toList = .ok 3600000000000 :=
  C88_whole (t := "3.6e+3".toList) (m := 36) (e := 2) (k := 3600) (trimmed_of (by decide +kernel)) (decimal_of (d := ⟨false, 36, 2⟩) (by decide +kernel))
    (by decide) (by decide +kernel)

/-- A tie: `2^-10` s are 976562.5 ns. -/
example : DecimalTime false 9765625 (-10) 976562 := by
  refine ⟨2 ^ 1064, (round53_iff (decDen_pos _)).1 (by decide +kernel), ?_, (fun h => by cases h), by decide +kernel⟩
  unfold NearestNat
  decide +kernel

/-- The limit `2^23` in `C88_exact` cannot be raised: a nanosecond more than that is read as two. -/
example : parseDuration f64Secs "8388608.000000001".toList = .ok 8388608000000002 := by
  rw [duration_decimal (t := "8388608.000000001".toList) (trimmed_of (by decide +kernel)) (decimal_of (d := ⟨false, 8388608000000001, -9⟩) (by decide +kernel))]
  decide +kernel

/-- The error may reach 238 ns. -/
example : parseDuration f64Secs "4294967294.000000238".toList = .ok 4294967294000000000 := by
  rw [duration_decimal (t := "4294967294.000000238".toList) (trimmed_of (by decide +kernel))
    (decimal_of (d := ⟨false, 4294967294000000238, -9⟩) (by decide +kernel))]
  decide +kernel

/-- A negative number is accepted as zero. -/
example : ∃ d, parseDuration f64Secs "-1e-400".toList = .ok d :=
  (C88_accepted _).2 (.inr ⟨"-1e-400".toList, true, 1, -400, trimmed_of (by decide +kernel), decimal_of (d := ⟨true, 1, -400⟩) (by decide +kernel), by
    show decNum 1 (-400) * 2 ^ 1075 ≤ decDen (-400)
    decide +kernel⟩)

/-- These are refused. -/
example : ¬ ∃ d, parseDuration f64Secs "4294967296".toList = .ok d := by
  rintro ⟨d, h⟩
  rw [duration_decimal (t := "4294967296".toList) (trimmed_of (by decide +kernel)) (decimal_of (d := ⟨false, 4294967296, 0⟩) (by decide +kernel))] at h
  revert h
  rw [show f64Secs "4294967296".toList = none by decide +kernel]
  exact fun h => by cases h

example : f64Secs "-1".toList = none ∧ f64Secs "1e".toList = none ∧ f64Secs ".".toList = none ∧ f64Secs "1 s".toList = none ∧
    f64Secs "inf".toList = none ∧ f64Secs "1e99".toList = none ∧ f64Secs "5.".toList = some 5000000000 := by decide +kernel

/-- A configuration file with both times. -/
def timesText : Str :=
  "[GENERAL]\ncontrol-timeout = 0.25\n[NFTABLES]\nfamily = inet\ntable = filter\nchain-input = INPUT\ntimeout = 1e2\n".toList

example : ((Config.new .Server).load f64Secs id "x".toList (.text timesText)).1 = .ok () ∧
    ((Config.new .Server).load f64Secs id "x".toList (.text timesText)).2.controlTimeout = 250000000 ∧
    ((Config.new .Server).load f64Secs id "x".toList (.text timesText)).2.nftTimeout = 100000000000 ∧
    ∃ d, FileDoc (.text timesText) d ∧ Setting d "NFTABLES".toList "timeout".toList " 1e2".toList := by
  refine ⟨by decide +kernel, by decide +kernel, by decide +kernel, ?_⟩
  have h2 : (match Ini.parseStr timesText with | .ok i => i.get "NFTABLES".toList "timeout".toList | _ => none) = some " 1e2".toList := by
    decide +kernel
  cases h : Ini.parseStr timesText with
  | ok ini =>
    rw [h] at h2
    obtain ⟨d, hd, hr⟩ := newFromFile_ok (file := .text timesText) h
    exact ⟨d, hd, hr.setting.1 h2⟩
  | err => rw [h] at h2; cases h2
  | panic => rw [h] at h2; cases h2

end Letmein.Props
