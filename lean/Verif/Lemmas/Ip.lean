import Verif.Lemmas.Text
import Verif.Spec.Ip

/-!
# Printed addresses are read as what they are
-/

namespace Letmein

open Spec

theorem pieces_eq (c : Char) (s : Str) : pieces c s = splitOn c s := by
  induction s with
  | nil => rfl
  | cons x xs ih =>
    rw [pieces, splitOn]
    split
    · rw [ih]
    · rw [ih]
      cases splitOn c xs <;> rfl

theorem hexValue_digitLower : ∀ n, n < 16 → hexValue (digitLower n) = some n := by decide +kernel

theorem foldlM_showDigits {b : Nat} (hb : 2 ≤ b) (hb' : b ≤ 16) (fuel n : Nat) (h : n < fuel) :
    (showDigits digitLower b fuel n).foldlM (moreDigits b) 0 = some n := by
  have hd : ∀ m d, d < b → moreDigits b m (digitLower d) = some (m * b + d) := by
    intro m d hd
    rw [moreDigits, hexValue_digitLower d (by omega)]
    simp [hd]
  induction fuel generalizing n with
  | zero => omega
  | succ fuel ih =>
    rw [showDigits]
    split
    · rename_i hn; simp [hd 0 n hn]
    · rename_i hn
      have hdiv : n / b < fuel := by
        have : n / b < n := Nat.div_lt_self (by omega) (by omega)
        omega
      rw [List.foldlM_append, ih _ hdiv]
      have := Nat.div_add_mod n b
      rw [Nat.mul_comm] at this
      simp [hd _ _ (Nat.mod_lt n (by omega : b > 0)), this]

theorem numeralValue_showNat (n : Nat) : numeralValue 10 (showNat n) = some n := by
  rw [numeralValue, if_neg (showNat_ne_nil n), showNat, foldlM_showDigits (by omega) (by omega) _ _ (by omega)]

theorem numeralValue_showHexLower (n : Nat) : numeralValue 16 (showHexLower n) = some n := by
  rw [numeralValue, if_neg (showHexLower_ne_nil n), showHexLower, foldlM_showDigits (by omega) (by omega) _ _ (by omega)]

theorem showDigits_length (digit : Nat → Char) {b : Nat} (hb : 2 ≤ b) (k : Nat) (fuel n : Nat) (h : n < b ^ (k + 1)) :
    (showDigits digit b fuel n).length ≤ k + 1 := by
  induction k generalizing fuel n with
  | zero =>
    cases fuel with
    | zero => simp [showDigits]
    | succ fuel => rw [showDigits, if_pos (by simpa using h)]; simp
  | succ k ih =>
    cases fuel with
    | zero => simp [showDigits]
    | succ fuel =>
      rw [showDigits]
      split
      · simp
      · have : n / b < b ^ (k + 1) := by
          rw [Nat.div_lt_iff_lt_mul (by omega)]
          rwa [← Nat.pow_succ]
        have := ih fuel (n / b) this
        simp; omega

theorem readByte_showNat (x : UInt8) : readByte (showNat x.toNat) = some x := by
  have := x.toNat_lt
  rw [readByte, numeralValue_showNat]
  simp only
  rw [if_pos (by omega)]
  simp

/-- A printed IPv4 address is read as the address. -/
theorem readIpv4_showIpv4 (a : Arr 4) : readIpv4 (showIpv4 a) = some a := by
  obtain ⟨v, hv⟩ := a
  match v, hv with
  | [x, y, z, w], hv =>
    have : pieces '.' (showIpv4 ⟨[x, y, z, w], hv⟩) = [x, y, z, w].map (fun b => showNat b.toNat) := by
      rw [pieces_eq, showIpv4, splitOn_joinWith (by simp)]
      intro p hp
      obtain ⟨_, _, rfl⟩ := List.mem_map.1 hp
      exact not_mem_showNat (by simp) _
    rw [readIpv4, this]
    simp [readByte_showNat]

theorem readGroup_showHexLower {n : Nat} (h : n < 65536) :
    readGroup (showHexLower n) = some [UInt8.ofNat (n / 256), UInt8.ofNat n] := by
  rw [readGroup, numeralValue_showHexLower]
  simp only
  rw [if_pos (show (showHexLower n).length ≤ 4 from showDigits_length _ (by omega) 3 _ _ (by simpa using h))]
  have : UInt8.ofNat (n % 256) = UInt8.ofNat n := by
    apply UInt8.toNat_inj.1
    simp
  rw [this]

theorem readGroups_hex (dotted : Bool) (l : List Nat) (h : ∀ n ∈ l, n < 65536) :
    readGroups dotted (l.map showHexLower) = some (unsegments l) := by
  induction l with
  | nil => rfl
  | cons n l ih =>
    have hn := readGroup_showHexLower (h n (by simp))
    cases l with
    | nil =>
      have : (showHexLower n).contains '.' = false := by
        have := not_mem_showHexLower (c := '.') (by simp) n
        simpa using this
      simp only [List.map, readGroups, this, hn, Bool.and_false, Bool.false_eq_true, if_false, unsegments]
    | cons m l =>
      have := ih (fun n hn => h n (by simp [hn]))
      simp only [List.map] at this ⊢
      rw [readGroups]
      · rw [hn, this]; rfl
      · simp

theorem joinWith_eq_nil {c : Char} {ps : List Str} (h : ∀ p ∈ ps, p ≠ []) : joinWith c ps = [] ↔ ps = [] := by
  cases ps with
  | nil => simp [joinWith]
  | cons p ps =>
    cases ps with
    | nil => simp [joinWith, h p (by simp)]
    | cons q ps => simp [joinWith]

theorem hex_tokens (l : List Nat) : ∀ t ∈ l.map showHexLower, t ≠ [] ∧ ':' ∉ t := by
  intro t ht
  obtain ⟨_, _, rfl⟩ := List.mem_map.1 ht
  exact ⟨showHexLower_ne_nil _, not_mem_showHexLower (by simp) _⟩

theorem readHalf_hex (dotted : Bool) (l : List Nat) (h : ∀ n ∈ l, n < 65536) :
    readHalf dotted (joinWith ':' (l.map showHexLower)) = some (unsegments l) := by
  unfold readHalf
  split
  · rename_i he
    rw [joinWith_eq_nil (fun t ht => (hex_tokens l t ht).1)] at he
    rw [List.map_eq_nil_iff.1 he]
    rfl
  · rename_i he
    rw [pieces_eq, splitOn_joinWith (by intro h; rw [h] at he; exact he rfl) (fun t ht => (hex_tokens l t ht).2), readGroups_hex dotted l h]

/-- The text goes on with something that is not a colon. -/
def NoColonFirst (s : Str) : Prop := ∀ r, s ≠ ':' :: r

theorem splitGap_token {p s : Str} (hp : p ≠ []) (hc : ':' ∉ p) :
    splitGap (p ++ s) = (splitGap s).map (fun e => (p ++ e.1, e.2)) := by
  induction p with
  | nil => exact absurd rfl hp
  | cons c p ih =>
    simp only [List.mem_cons, not_or] at hc
    rw [List.cons_append, splitGap]
    · by_cases h : p = []
      · subst h
        simp only [List.nil_append]
        cases splitGap s <;> simp
      · rw [ih h hc.2]
        cases splitGap s <;> simp
    · rintro rest rfl; exact absurd rfl hc.1

theorem splitGap_colon {s : Str} (h : NoColonFirst s) : splitGap (':' :: s) = (splitGap s).map (fun e => (':' :: e.1, e.2)) := by
  rw [splitGap]
  · cases splitGap s <;> simp
  · intro after _ he
    exact h _ he

theorem noColonFirst_append {p s : Str} (hp : p ≠ []) (hc : ':' ∉ p) : NoColonFirst (p ++ s) := by
  cases p with
  | nil => exact absurd rfl hp
  | cons c p =>
    intro r he
    simp only [List.cons_append, List.cons.injEq] at he
    exact hc (by simp [he.1])

theorem noColonFirst_join {ps : List Str} {s : Str} (hne : ps ≠ []) (h : ∀ t ∈ ps, t ≠ [] ∧ ':' ∉ t) : NoColonFirst (joinWith ':' ps ++ s) := by
  match ps, hne with
  | [p], _ => exact noColonFirst_append (h p (by simp)).1 (h p (by simp)).2
  | p :: q :: ps, _ =>
    rw [joinWith, List.append_assoc]
    exact noColonFirst_append (h p (by simp)).1 (h p (by simp)).2

theorem splitGap_join {ps : List Str} (s : Str) (hne : ps ≠ []) (h : ∀ t ∈ ps, t ≠ [] ∧ ':' ∉ t) :
    splitGap (joinWith ':' ps ++ s) = (splitGap s).map (fun e => (joinWith ':' ps ++ e.1, e.2)) := by
  induction ps with
  | nil => exact absurd rfl hne
  | cons p ps ih =>
    cases ps with
    | nil => exact splitGap_token (h p (by simp)).1 (h p (by simp)).2
    | cons q ps =>
      rw [joinWith, List.append_assoc, splitGap_token (h p (by simp)).1 (h p (by simp)).2, List.cons_append,
        splitGap_colon (noColonFirst_join (by simp) fun t ht => h t (by simp [ht])), ih (by simp) fun t ht => h t (by simp [ht])]
      cases splitGap s <;> simp

theorem unsegments_append (a b : List Nat) : unsegments (a ++ b) = unsegments a ++ unsegments b := by
  induction a with
  | nil => rfl
  | cons x a ih => simp [unsegments, ih]

theorem unsegments_length (a : List Nat) : (unsegments a).length = 2 * a.length := by
  induction a with
  | nil => rfl
  | cons x a ih => simp [unsegments, ih]; omega

theorem unsegments_zeros (k : Nat) : unsegments (List.replicate k 0) = List.replicate (2 * k) 0 := by
  induction k with
  | zero => rfl
  | succ k ih =>
    rw [List.replicate_succ, unsegments, ih, show 2 * (k + 1) = 2 * k + 1 + 1 from rfl, List.replicate_succ, List.replicate_succ]
    rfl

theorem segments_lt (l : Bytes) : ∀ n ∈ segments l, n < 65536 := by
  induction l using segments.induct with
  | case1 a b rest ih =>
    have ha := a.toNat_lt
    have hb := b.toNat_lt
    rw [segments]
    intro n hn
    simp only [List.mem_cons] at hn
    rcases hn with rfl | hn
    · omega
    · exact ih n hn
  | case2 l hl =>
    match l, hl with
    | [], _ => simp [segments]
    | [a], _ => simp [segments]
    | a :: b :: r, hl => exact absurd rfl (hl a b r)

/-- A printed IPv6 address is read as the address. -/
theorem readIpv6_showIpv6 (a : Arr 16) : readIpv6 (showIpv6 a) = some a := by
  unfold showIpv6
  cases hm : toIpv4Mapped a with
  | some x =>
    have hx : a.val = [0, 0, 0, 0, 0, 0, 0, 0, 0, 0, 0xFF, 0xFF] ++ x.val := by
      unfold toIpv4Mapped at hm
      split at hm
      · rename_i ht
        injection hm with hm
        rw [← hm, ← ht]
        simp
      · cases hm
    have h1 : splitGap ("::ffff:".toList ++ showIpv4 x) = some ([], "ffff:".toList ++ showIpv4 x) := rfl
    have h2 : pieces ':' ("ffff:".toList ++ showIpv4 x) = ["ffff".toList, showIpv4 x] := by
      rw [pieces_eq, show "ffff:".toList ++ showIpv4 x = "ffff".toList ++ ':' :: showIpv4 x from rfl, splitOn_append_sep (by decide),
        splitOn_of_not_mem (showIpv4_no (by simp) x)]
    have h3 : (showIpv4 x).contains '.' = true := by simpa using dot_mem_showIpv4 x
    have h4 : readGroup "ffff".toList = some [0xFF, 0xFF] := by decide +kernel
    have h5 : readHalf true ("ffff:".toList ++ showIpv4 x) = some ([0xFF, 0xFF] ++ x.val) := by
      rw [readHalf, if_neg (by simp), h2]
      simp only [readGroups, h3, h4, Bool.and_true, if_true, readIpv4_showIpv4, Option.map_some]
    have h6 : readHalf false [] = some [] := rfl
    simp only [readIpv6, h1, h5, h6]
    have hl := x.property
    rw [dif_pos (by simp [hl])]
    congr 1
    apply Subtype.ext
    rw [hx]
    simp [hl]
  | none =>
    have hlen : (segments a.val).length = 8 := by rw [segments_length, a.property]
    have hun : unsegments (segments a.val) = a.val := unsegments_segments _ (by rw [a.property])
    have hlt := segments_lt a.val
    have hz := zeroRun_spec (segments a.val) [] (0, 0) (0, 0) (.inl rfl) (by simp) (.inl rfl)
    simp only [List.nil_append, List.length_nil] at hz
    simp only
    generalize segments a.val = segs at *
    generalize zeroRun segs 0 (0, 0) (0, 0) = run at *
    split
    · rename_i hr
      have hz : run.1 + run.2 ≤ 8 ∧ (segs.drop run.1).take run.2 = List.replicate run.2 0 := by
        rcases hz with h | h
        · omega
        · rwa [hlen] at h
      have h1 : splitGap (joinWith ':' ((segs.take run.1).map showHexLower) ++ "::".toList ++ joinWith ':' ((segs.drop (run.1 + run.2)).map showHexLower)) =
          some (joinWith ':' ((segs.take run.1).map showHexLower), joinWith ':' ((segs.drop (run.1 + run.2)).map showHexLower)) := by
        generalize joinWith ':' ((segs.drop (run.1 + run.2)).map showHexLower) = r
        have h0 : splitGap ("::".toList ++ r) = some ([], r) := rfl
        by_cases he : (segs.take run.1).map showHexLower = []
        · rw [he]; exact h0
        · rw [List.append_assoc, splitGap_join _ he (hex_tokens _), h0]
          simp
      simp only [readIpv6, h1, readHalf_hex _ _ fun n hn => hlt n (List.mem_of_mem_take hn), readHalf_hex _ _ fun n hn => hlt n (List.mem_of_mem_drop hn)]
      have e1 : (segs.take run.1).length = run.1 := by simp; omega
      have e2 : (segs.drop (run.1 + run.2)).length = 8 - (run.1 + run.2) := by simp [hlen]
      rw [dif_pos (by rw [unsegments_length, unsegments_length, e1, e2]; omega)]
      congr 1
      apply Subtype.ext
      simp only [unsegments_length, e1, e2]
      rw [show 16 - 2 * run.1 - 2 * (8 - (run.1 + run.2)) = 2 * run.2 by omega, ← unsegments_zeros, ← hz.2, ← unsegments_append, ← unsegments_append,
        List.append_assoc, ← List.drop_drop, List.take_append_drop, List.take_append_drop, hun]
    · have hne : segs.map showHexLower ≠ [] := by intro h; rw [List.map_eq_nil_iff] at h; rw [h] at hlen; simp at hlen
      have h1 := splitGap_join [] hne (hex_tokens segs)
      simp only [List.append_nil, show splitGap [] = none from rfl, Option.map_none] at h1
      simp only [readIpv6, h1, readHalf_hex _ _ hlt]
      rw [dif_pos (by rw [unsegments_length, hlen])]
      congr 1
      apply Subtype.ext
      exact hun

end Letmein
