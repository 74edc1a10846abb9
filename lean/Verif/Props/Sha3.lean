import Verif.Spec.Keccak
import Verif.Props.Hmac

/-!
# Property C95: the tags are what FIPS 202 and FIPS 198-1 define

The model of the hash function computes with lanes of 64 bits and with tables of rotation offsets and round constants. It is proved equal to the bit-level
definitions of the standards.
-/

namespace Letmein.Props

open Letmein Prog Spec

/-! ### Lanes and bits -/

theorem rotl_lt (x r : Nat) : rotl x r < 2 ^ 64 := Nat.mod_lt _ (by decide)

theorem rotl_bit {x r z : Nat} (hx : x < 2 ^ 64) (hr : r < 64) (hz : z < 64) :
    (rotl x r).testBit z = x.testBit ((z + (64 - r)) % 64) := by
  simp only [rotl, Nat.testBit_mod_two_pow, Nat.testBit_or, Nat.testBit_shiftLeft, Nat.testBit_shiftRight]
  have hbig : ∀ i, 64 ≤ i → x.testBit i = false := fun i hi =>
    Nat.testBit_lt_two_pow (Nat.lt_of_lt_of_le hx (Nat.pow_le_pow_right (by decide) hi))
  by_cases h : r ≤ z
  · have e : (z + (64 - r)) % 64 = z - r := by omega
    rw [e, hbig (64 - r + z) (by omega)]
    simp [h, hz]
  · have e : (z + (64 - r)) % 64 = 64 - r + z := by omega
    rw [e]
    simp [h, hz]

/-- The state as lanes and as an array of bits. -/
def Rep (a : KState) (A : StateArray) : Prop :=
  a.length = 25 ∧ (∀ v ∈ a, v < 2 ^ 64) ∧ ∀ x y z, x < 5 → y < 5 → z < 64 → (a.at x y).testBit z = A x y z

theorem at_tab (f : Nat → Nat → Lane) {x y : Nat} (hx : x < 5) (hy : y < 5) : (KState.tab f).at x y = f x y := by
  have h : x + 5 * y < 25 := by omega
  have e1 : (x + 5 * y) % 5 = x := by omega
  have e2 : (x + 5 * y) / 5 = y := by omega
  simp only [KState.at, KState.tab, Nat.mod_eq_of_lt hx, Nat.mod_eq_of_lt hy]
  simp [List.getD_eq_getElem?_getD, h, e1, e2]

theorem at_mod (a : KState) (x y : Nat) : a.at x y = a.at (x % 5) (y % 5) := by
  simp [KState.at]

theorem at_lt {a : KState} (h : ∀ v ∈ a, v < 2 ^ 64) (x y : Nat) : a.at x y < 2 ^ 64 := by
  simp only [KState.at, List.getD_eq_getElem?_getD]
  cases e : a[x % 5 + 5 * (y % 5)]? with
  | none => simp
  | some v => exact h v (List.mem_of_getElem? e)

theorem rep_tab {f : Nat → Nat → Lane} {A : StateArray} (hlt : ∀ x y, x < 5 → y < 5 → f x y < 2 ^ 64)
    (hb : ∀ x y z, x < 5 → y < 5 → z < 64 → (f x y).testBit z = A x y z) : Rep (KState.tab f) A := by
  refine ⟨by simp [KState.tab], ?_, fun x y z hx hy hz => by rw [at_tab f hx hy]; exact hb x y z hx hy hz⟩
  intro v hv
  simp only [KState.tab, List.mem_map, List.mem_range] at hv
  obtain ⟨i, hi, rfl⟩ := hv
  exact hlt _ _ (by omega) (by omega)

theorem xor_lt {a b : Nat} (ha : a < 2 ^ 64) (hb : b < 2 ^ 64) : a ^^^ b < 2 ^ 64 := Nat.xor_lt_two_pow ha hb

/-! ### The steps of a round -/

theorem theta_rep {a : KState} {A : StateArray} (h : Rep a A) : Rep (theta a) (fipsTheta A) := by
  obtain ⟨hl, hv, hb⟩ := h
  have hat := at_lt hv
  have hc : ∀ x, x < 5 → ((List.range 5).map (fun x => a.at x 0 ^^^ a.at x 1 ^^^ a.at x 2 ^^^ a.at x 3 ^^^ a.at x 4)).getD x 0 =
      a.at x 0 ^^^ a.at x 1 ^^^ a.at x 2 ^^^ a.at x 3 ^^^ a.at x 4 := by
    intro x hx
    simp [List.getD_eq_getElem?_getD, hx]
  have hclt : ∀ x, a.at x 0 ^^^ a.at x 1 ^^^ a.at x 2 ^^^ a.at x 3 ^^^ a.at x 4 < 2 ^ 64 := fun x =>
    xor_lt (xor_lt (xor_lt (xor_lt (hat _ _) (hat _ _)) (hat _ _)) (hat _ _)) (hat _ _)
  have hcb : ∀ x z, x < 5 → z < 64 → (a.at x 0 ^^^ a.at x 1 ^^^ a.at x 2 ^^^ a.at x 3 ^^^ a.at x 4).testBit z = columnParity A x z := by
    intro x z hx hz
    simp only [Nat.testBit_xor, columnParity, hb x _ z hx (by decide : 0 < 5) hz, hb x _ z hx (by decide : 1 < 5) hz,
      hb x _ z hx (by decide : 2 < 5) hz, hb x _ z hx (by decide : 3 < 5) hz, hb x _ z hx (by decide : 4 < 5) hz]
  have hd : ∀ x, x < 5 → ((List.range 5).map (fun x =>
      ((List.range 5).map (fun x => a.at x 0 ^^^ a.at x 1 ^^^ a.at x 2 ^^^ a.at x 3 ^^^ a.at x 4)).getD ((x + 4) % 5) 0 ^^^
      rotl (((List.range 5).map (fun x => a.at x 0 ^^^ a.at x 1 ^^^ a.at x 2 ^^^ a.at x 3 ^^^ a.at x 4)).getD ((x + 1) % 5) 0) 1)).getD x 0 =
      (a.at ((x + 4) % 5) 0 ^^^ a.at ((x + 4) % 5) 1 ^^^ a.at ((x + 4) % 5) 2 ^^^ a.at ((x + 4) % 5) 3 ^^^ a.at ((x + 4) % 5) 4) ^^^
      rotl (a.at ((x + 1) % 5) 0 ^^^ a.at ((x + 1) % 5) 1 ^^^ a.at ((x + 1) % 5) 2 ^^^ a.at ((x + 1) % 5) 3 ^^^ a.at ((x + 1) % 5) 4) 1 := by
    intro x hx
    rw [← hc _ (Nat.mod_lt _ (by decide) : (x + 4) % 5 < 5), ← hc _ (Nat.mod_lt _ (by decide) : (x + 1) % 5 < 5)]
    simp only [List.getD_eq_getElem?_getD, List.getElem?_map, List.getElem?_range hx, Option.map_some, Option.getD_some]
  delta theta
  dsimp only
  refine rep_tab ?_ ?_
  · intro x y hx hy
    rw [hd x hx]
    exact xor_lt (hat _ _) (xor_lt (hclt _) (rotl_lt _ _))
  · intro x y z hx hy hz
    rw [hd x hx, Nat.testBit_xor, Nat.testBit_xor, hb x y z hx hy hz, hcb _ _ (Nat.mod_lt _ (by decide)) hz,
      rotl_bit (hclt _) (by decide) hz, hcb _ _ (Nat.mod_lt _ (by decide)) (Nat.mod_lt _ (by decide))]
    rfl

theorem rho_spec : ∀ x, x < 5 → ∀ y, y < 5 → (x = 0 ∧ y = 0) ∨
    ∃ t, t ∈ List.range 24 ∧ rhoLane t = (x, y) ∧ rhoOffsets.getD (x + 5 * y) 0 = (t + 1) * (t + 2) / 2 % 64 := by
  decide +kernel

theorem rho_once : ∀ t, t < 24 → ∀ s, s < 24 → s ≠ t → rhoLane s ≠ rhoLane t := by decide +kernel

theorem rho_not_zero : ∀ t, t < 24 → rhoLane t ≠ (0, 0) := by decide +kernel

/-- A loop that writes places, where at most one turn writes this place. -/
theorem foldl_write {β : Type} (ts : List Nat) (p : Nat → Nat × Nat) (g : Nat → Nat → Nat → β → Bool) (init : Nat → Nat → β → Bool) (x y : Nat) (z : β) :
    (ts.foldl (fun a' t => fun x y z => if (x, y) = p t then g t x y z else a' x y z) init) x y z =
      match ts.reverse.find? (fun t => decide (p t = (x, y))) with
      | some t => g t x y z
      | none => init x y z := by
  induction ts generalizing init with
  | nil => rfl
  | cons t ts ih =>
    simp only [List.foldl_cons, ih, List.reverse_cons, List.find?_append]
    cases e : ts.reverse.find? (fun t => decide (p t = (x, y))) with
    | some s => simp
    | none =>
      by_cases h : p t = (x, y)
      · simp [h]
      · have h' : ¬ (x, y) = p t := fun e => h e.symm
        simp [h, h']

theorem rho_rep {a : KState} {A : StateArray} (h : Rep a A) : Rep (rho a) (fipsRho A) := by
  obtain ⟨hl, hv, hb⟩ := h
  have hat := at_lt hv
  refine rep_tab (fun x y _ _ => rotl_lt _ _) ?_
  intro x y z hx hy hz
  rw [fipsRho, foldl_write]
  rcases rho_spec x hx y hy with ⟨rfl, rfl⟩ | ⟨t, ht, hp, ho⟩
  · rw [show rhoOffsets.getD (0 + 5 * 0) 0 = 0 from rfl, rotl_bit (hat _ _) (by decide) hz]
    have : (List.range 24).reverse.find? (fun t => decide (rhoLane t = (0, 0))) = none := by
      rw [List.find?_eq_none]
      intro s hs
      simpa using rho_not_zero s (by simpa using hs)
    rw [this]
    have e : (z + (64 - 0)) % 64 = z := by omega
    simp only [e, and_self, if_true]
    exact hb 0 0 z (by decide) (by decide) hz
  · have : (List.range 24).reverse.find? (fun s => decide (rhoLane s = (x, y))) = some t := by
      cases e : (List.range 24).reverse.find? (fun s => decide (rhoLane s = (x, y))) with
      | none =>
        rw [List.find?_eq_none] at e
        exact absurd hp (by simpa using e t (by simpa using ht))
      | some s =>
        have h1 := List.find?_some e
        have h2 := List.mem_of_find?_eq_some e
        by_cases hst : s = t
        · rw [hst]
        · exact absurd ((by simpa using h1 : rhoLane s = (x, y)).trans hp.symm) (rho_once t (by simpa using ht) s (by simpa using h2) hst)
    rw [this, ho, rotl_bit (hat _ _) (Nat.mod_lt _ (by decide)) hz]
    simp only
    generalize (t + 1) * (t + 2) / 2 = q
    have e : (((z : Int) - (q : Nat)) % 64).toNat = (z + (64 - q % 64)) % 64 := by omega
    rw [e]
    exact hb x y _ hx hy (Nat.mod_lt _ (by decide))

theorem pi_rep {a : KState} {A : StateArray} (h : Rep a A) : Rep (piStep a) (fipsPi A) := by
  obtain ⟨hl, hv, hb⟩ := h
  refine rep_tab (fun x y _ _ => at_lt hv _ _) ?_
  intro x y z hx hy hz
  rw [at_mod, hb _ _ z (Nat.mod_lt _ (by decide)) (Nat.mod_lt _ (by decide)) hz, Nat.mod_eq_of_lt hx]
  rfl

theorem chi_rep {a : KState} {A : StateArray} (h : Rep a A) : Rep (chi a) (fipsChi A) := by
  obtain ⟨hl, hv, hb⟩ := h
  have hat := at_lt hv
  refine rep_tab ?_ ?_
  · intro x y _ _
    exact xor_lt (hat _ _) (Nat.and_lt_two_pow _ (hat _ _))
  · intro x y z hx hy hz
    rw [at_mod a (x + 1) y, at_mod a (x + 2) y, Nat.mod_eq_of_lt hy]
    simp only [Nat.testBit_xor, Nat.testBit_and, Nat.testBit_two_pow_sub_one, hz, decide_true,
      hb x y z hx hy hz, hb _ y z (Nat.mod_lt (x + 1) (by decide)) hy hz, hb _ y z (Nat.mod_lt (x + 2) (by decide)) hy hz, fipsChi]

theorem rc_spec : ∀ ir, ir < 24 → roundConstants.getD ir 0 < 2 ^ 64 ∧
    ∀ z, z < 64 → (roundConstants.getD ir 0).testBit z = fipsRoundConstant ir z := by
  decide +kernel

theorem iota_rep {a : KState} {A : StateArray} (h : Rep a A) {ir : Nat} (hi : ir < 24) :
    Rep (iota (roundConstants.getD ir 0) a) (fipsIota A ir) := by
  obtain ⟨hl, hv, hb⟩ := h
  have hat := at_lt hv
  obtain ⟨hr, hrb⟩ := rc_spec ir hi
  refine rep_tab ?_ ?_
  · intro x y _ _
    split
    · exact xor_lt (hat _ _) hr
    · exact hat _ _
  · intro x y z hx hy hz
    simp only [fipsIota]
    split
    · rw [Nat.testBit_xor, hrb z hz, hb 0 0 z (by decide) (by decide) hz]
    · exact hb x y z hx hy hz

theorem rounds_rep (l : List Nat) (hl : ∀ ir ∈ l, ir < 24) {a : KState} {A : StateArray} (h : Rep a A) :
    Rep ((l.map (fun ir => roundConstants.getD ir 0)).foldl (fun s rc => iota rc (chi (piStep (rho (theta s))))) a) (l.foldl fipsRnd A) := by
  induction l generalizing a A with
  | nil => exact h
  | cons ir l ih =>
    simp only [List.map_cons, List.foldl_cons]
    exact ih (fun i hi => hl i (.tail _ hi)) (iota_rep (chi_rep (pi_rep (rho_rep (theta_rep h)))) (hl ir (.head _)))

theorem keccakF_rep {a : KState} {A : StateArray} (h : Rep a A) : Rep (keccakF a) ((List.range 24).foldl fipsRnd A) := by
  have e : roundConstants = (List.range 24).map (fun ir => roundConstants.getD ir 0) := by decide +kernel
  have := rounds_rep (List.range 24) (fun ir hi => by simpa using hi) h
  rw [← e] at this
  exact this

/-! ### Strings of bits -/

theorem getD_flatMap {α β : Type} (f : α → List β) (m : Nat) (d : β) (l : List α) (hm : ∀ a ∈ l, (f a).length = m) (a0 : α) (i j : Nat)
    (hi : i < l.length) (hj : j < m) : (l.flatMap f).getD (m * i + j) d = (f (l.getD i a0)).getD j d := by
  induction l generalizing i with
  | nil => cases hi
  | cons a l ih =>
    have ha : (f a).length = m := hm a (.head _)
    cases i with
    | zero =>
      simp only [List.flatMap_cons, Nat.mul_zero, Nat.zero_add, List.getD_cons_zero]
      simp only [List.getD_eq_getElem?_getD]
      rw [List.getElem?_append_left (by omega)]
    | succ i =>
      have h2 : (f a).length ≤ m * (i + 1) + j := by rw [ha, Nat.mul_succ]; omega
      have e : m * (i + 1) + j - (f a).length = m * i + j := by rw [ha, Nat.mul_succ]; omega
      have := ih (fun b hb => hm b (.tail _ hb)) i (by simpa using hi)
      simp only [List.flatMap_cons, List.getD_cons_succ]
      rw [← this]
      simp only [List.getD_eq_getElem?_getD]
      rw [List.getElem?_append_right h2, e]

theorem length_flatMap_const {α β : Type} (f : α → List β) (m : Nat) (l : List α) (hm : ∀ a ∈ l, (f a).length = m) :
    (l.flatMap f).length = m * l.length := by
  induction l with
  | nil => rfl
  | cons a l ih =>
    simp only [List.flatMap_cons, List.length_append, List.length_cons, hm a (.head _), ih (fun b hb => hm b (.tail _ hb)), Nat.mul_succ]
    omega

theorem getD_range {n i : Nat} (h : i < n) : (List.range n).getD i 0 = i := by
  simp [List.getD_eq_getElem?_getD, h]

theorem bitsOf_length (b : Bytes) : (bitsOf b).length = 8 * b.length :=
  length_flatMap_const _ 8 b (fun _ _ => by simp)

theorem bitsOf_append (a b : Bytes) : bitsOf (a ++ b) = bitsOf a ++ bitsOf b := by simp [bitsOf]

theorem bitsOf_getD (b : Bytes) (i : Nat) : (bitsOf b).getD i false = (b.getD (i / 8) 0).toNat.testBit (i % 8) := by
  by_cases h : i / 8 < b.length
  · have := getD_flatMap (fun x : UInt8 => (List.range 8).map (fun i => x.toNat.testBit i)) 8 false b (fun _ _ => by simp) 0 (i / 8) (i % 8) h
      (Nat.mod_lt _ (by decide))
    rw [Nat.div_add_mod] at this
    rw [bitsOf, this]
    have h8 : i % 8 < 8 := Nat.mod_lt _ (by decide)
    simp [List.getD_eq_getElem?_getD, h8]
  · have h1 : (bitsOf b).length ≤ i := by rw [bitsOf_length]; omega
    rw [List.getD_eq_getElem?_getD, List.getD_eq_getElem?_getD, List.getElem?_eq_none h1, List.getElem?_eq_none (by omega)]
    simp

theorem laneOf_bit (b : Bytes) (z : Nat) : (laneOf b).testBit z = (b.getD (z / 8) 0).toNat.testBit (z % 8) := by
  induction b generalizing z with
  | nil => simp [laneOf]
  | cons x b ih =>
    have e : laneOf (x :: b) = 2 ^ 8 * laneOf b + x.toNat := by
      simp only [laneOf, List.foldr_cons]; omega
    rw [e, Nat.testBit_two_pow_mul_add _ (UInt8.toNat_lt x)]
    by_cases h : z < 8
    · simp [h, Nat.div_eq_of_lt h, Nat.mod_eq_of_lt h]
    · have h1 : z / 8 = (z - 8) / 8 + 1 := by omega
      have h2 : (z - 8) % 8 = z % 8 := by omega
      rw [if_neg h, ih, h1, List.getD_cons_succ, h2]

theorem bits_ext {a b : Bits} (hl : a.length = b.length) (h : ∀ i, i < a.length → a.getD i false = b.getD i false) : a = b := by
  apply List.ext_getElem hl
  intro i h1 h2
  have := h i h1
  simpa [List.getD_eq_getElem?_getD, h1, h2] using this

theorem fromArray_length (A : StateArray) : (fromArray A).length = 1600 := by
  rw [fromArray, length_flatMap_const _ 320]
  · simp
  · intro y _
    rw [length_flatMap_const _ 64 _ (fun _ _ => by simp)]
    simp

theorem toArray_fromArray (A : StateArray) {x y z : Nat} (hx : x < 5) (hy : y < 5) (hz : z < 64) : toArray (fromArray A) x y z = A x y z := by
  have e : 64 * (5 * y + x) + z = 320 * y + (64 * x + z) := by omega
  rw [toArray, e, fromArray, getD_flatMap _ 320 false _ _ 0 y (64 * x + z) (by simpa using hy) (by omega), getD_range hy,
    getD_flatMap _ 64 false _ _ 0 x z (by simpa using hx) hz, getD_range hx]
  · simp [List.getD_eq_getElem?_getD, hz]
  · intro _ _; simp
  · intro _ _
    rw [length_flatMap_const _ 64 _ (fun _ _ => by simp)]
    simp

/-- The state as lanes and as a string of bits. -/
def RepS (a : KState) (s : Bits) : Prop := s.length = 1600 ∧ Rep a (toArray s)

theorem keccakP_rep {a : KState} {s : Bits} (h : Rep a (toArray s)) : RepS (keccakF a) (fipsKeccakP s) := by
  refine ⟨fromArray_length _, ?_⟩
  obtain ⟨h1, h2, h3⟩ := keccakF_rep h
  exact ⟨h1, h2, fun x y z hx hy hz => by rw [h3 x y z hx hy hz, fipsKeccakP, toArray_fromArray _ hx hy hz]⟩

theorem xorBits_getD {a b : Bits} (h : a.length = b.length) (i : Nat) : (xorBits a b).getD i false = (a.getD i false ^^ b.getD i false) := by
  simp only [xorBits, List.getD_eq_getElem?_getD, List.getElem?_zipWith]
  by_cases hi : i < a.length
  · have hi' : i < b.length := by omega
    simp [hi, hi']
  · have hi' : ¬ i < b.length := by omega
    simp [List.getElem?_eq_none (Nat.le_of_not_lt hi), List.getElem?_eq_none (Nat.le_of_not_lt hi')]

theorem xorBits_length {a b : Bits} (h : a.length = b.length) : (xorBits a b).length = a.length := by simp [xorBits, h]

theorem getD_append_zeros (a : Bits) (n i : Nat) : (a ++ List.replicate n false).getD i false = a.getD i false := by
  by_cases h : i < a.length
  · simp [List.getD_eq_getElem?_getD, List.getElem?_append_left h]
  · rw [List.getD_eq_getElem?_getD, List.getD_eq_getElem?_getD, List.getElem?_append_right (by omega), List.getElem?_eq_none (Nat.le_of_not_lt h)]
    by_cases h2 : i - a.length < n
    · simp [h2]
    · simp [List.getElem?_eq_none, Nat.le_of_not_lt h2]

theorem absorbBlock_rep {a : KState} {s : Bits} (h : RepS a s) {block : Bytes} (hb : block.length = 136) :
    RepS (absorbBlock a block) (fipsKeccakP (xorBits s (bitsOf block ++ List.replicate 512 false))) := by
  obtain ⟨hs, h1, h2, h3⟩ := h
  have hlen : s.length = (bitsOf block ++ List.replicate 512 false).length := by
    rw [List.length_append, bitsOf_length, hb, List.length_replicate, hs]
  refine keccakP_rep (rep_tab ?_ ?_)
  · intro x y _ _
    refine xor_lt (at_lt h2 _ _) (Nat.lt_of_lt_of_le (laneOf_lt _) ?_)
    exact Nat.le_trans (Nat.pow_le_pow_right (by decide) (by simp; omega : _ ≤ 8)) (by decide)
  · intro x y z hx hy hz
    have h64 : z / 8 < 8 := by omega
    have e1 : (64 * (5 * y + x) + z) / 8 = 8 * (x + 5 * y) + z / 8 := by omega
    have e2 : (64 * (5 * y + x) + z) % 8 = z % 8 := by omega
    rw [Nat.testBit_xor, h3 x y z hx hy hz, laneOf_bit]
    simp only [toArray]
    rw [xorBits_getD hlen, getD_append_zeros, bitsOf_getD, e1, e2]
    simp only [List.getD_eq_getElem?_getD, List.getElem?_take, if_pos h64, List.getElem?_drop]

theorem bitsOf_take (b : Bytes) (n : Nat) : bitsOf (b.take n) = (bitsOf b).take (8 * n) := by
  induction b generalizing n with
  | nil => simp [bitsOf]
  | cons x b ih =>
    cases n with
    | zero => simp [bitsOf]
    | succ n =>
      have := ih n
      simp only [bitsOf] at this ⊢
      simp only [List.take_succ_cons, List.flatMap_cons]
      have h8 : ((List.range 8).map (fun i => x.toNat.testBit i)).length = 8 := by rw [List.length_map, List.length_range]
      rw [List.take_append, this, List.take_of_length_le (l := (List.range 8).map _) (by rw [h8]; omega), h8]
      congr 2

theorem bitsOf_drop (b : Bytes) (n : Nat) : bitsOf (b.drop n) = (bitsOf b).drop (8 * n) := by
  have h1 : bitsOf (b.take n) ++ bitsOf (b.drop n) = bitsOf b := by rw [← bitsOf_append, List.take_append_drop]
  have h2 : (bitsOf b).take (8 * n) ++ (bitsOf b).drop (8 * n) = bitsOf b := List.take_append_drop _ _
  rw [← h2, bitsOf_take] at h1
  exact List.append_cancel_left h1

theorem blocksOf_succ (r n : Nat) (p : Bits) : blocksOf r (n + 1) p = p.take r :: blocksOf r n (p.drop r) := by
  simp only [blocksOf, List.range_succ_eq_map, List.map_cons, List.map_map, Nat.mul_zero, List.drop_zero]
  congr 1
  apply List.map_congr_left
  intro i _
  simp only [Function.comp, List.drop_drop, Nat.mul_succ]
  rw [Nat.add_comm]

theorem absorb_rep (n : Nat) (b : Bytes) (hb : b.length = 136 * n) {a : KState} {s : Bits} (h : RepS a s) :
    RepS (absorb a n b) (spongeAbsorb 1088 s (blocksOf 1088 n (bitsOf b))) := by
  induction n generalizing a s b with
  | zero => exact h
  | succ n ih =>
    have hne : b.isEmpty = false := by
      cases b with
      | nil => simp at hb
      | cons _ _ => rfl
    rw [absorb, hne, blocksOf_succ]
    simp only [Bool.false_eq_true, if_false, spongeAbsorb, List.foldl_cons]
    have e1 : (bitsOf b).take 1088 = bitsOf (b.take RATE) := (bitsOf_take b 136).symm
    have e2 : (bitsOf b).drop 1088 = bitsOf (b.drop RATE) := (bitsOf_drop b 136).symm
    rw [e1, e2]
    refine ih (b.drop RATE) (by simp only [List.length_drop, hb, RATE]; omega) ?_
    exact absorbBlock_rep h (by simp only [List.length_take, hb, RATE]; omega)

theorem start_rep : RepS (List.replicate 25 0) (List.replicate 1600 false) := by
  refine ⟨List.length_replicate, List.length_replicate, ?_, ?_⟩
  · intro v hv
    rw [List.eq_of_mem_replicate hv]; decide
  · intro x y z hx hy hz
    have h1 : x + 5 * y < 25 := by omega
    have h2 : 64 * (5 * y + x) + z < 1600 := by omega
    simp only [KState.at, toArray, List.getD_eq_getElem?_getD, Nat.mod_eq_of_lt hx, Nat.mod_eq_of_lt hy, List.getElem?_replicate, if_pos h1, if_pos h2,
      Option.getD_some, Nat.zero_testBit]

theorem bitsOf_zeros (n : Nat) : bitsOf (List.replicate n 0) = List.replicate (8 * n) false := by
  apply bits_ext (by simp [bitsOf_length])
  intro i _
  rw [bitsOf_getD]
  simp only [List.getD_eq_getElem?_getD, List.getElem?_replicate]
  split <;> split <;> simp

theorem bitsOf_pad (m : Bytes) : bitsOf (pad m) = (bitsOf m ++ [false, true]) ++ fipsPad 1088 (bitsOf m ++ [false, true]).length := by
  have hl : (bitsOf m ++ [false, true]).length = 8 * m.length + 2 := by simp [bitsOf_length]
  rw [hl]
  have hj : ((-((8 * m.length + 2 : Nat) : Int) - 2) % (1088 : Nat)).toNat = 8 * (136 - m.length % 136) - 4 := by omega
  rw [fipsPad, hj, pad]
  simp only [RATE]
  by_cases hq : 136 - m.length % 136 = 1
  · rw [if_pos hq, hq, bitsOf_append, List.append_assoc]
    congr 1
  · rw [if_neg hq]
    have hq2 : 2 ≤ 136 - m.length % 136 := by have := Nat.mod_lt m.length (by decide : 0 < 136); omega
    obtain ⟨q, he⟩ : ∃ q, 136 - m.length % 136 = q + 2 := ⟨_, (Nat.sub_add_cancel hq2).symm⟩
    rw [he, Nat.add_sub_cancel, bitsOf_append, bitsOf_append, bitsOf_append, bitsOf_zeros]
    have e1 : bitsOf [0x06] = [false, true] ++ (true :: List.replicate 5 false) := by decide
    have e2 : bitsOf [0x80] = List.replicate 7 false ++ [true] := by decide
    have e3 : 8 * (q + 2) - 4 = 5 + (8 * q + 7) := by omega
    rw [e1, e2, e3, ← List.replicate_append_replicate, ← List.replicate_append_replicate]
    simp only [List.append_assoc, List.cons_append, List.nil_append]

theorem out_bits {a : KState} {s : Bits} (h : RepS a s) :
    bitsOf ((List.range 4).flatMap (fun i => laneBytes (a.getD i 0))) = s.take 256 := by
  obtain ⟨hs, h1, h2, h3⟩ := h
  have hlen : ((List.range 4).flatMap (fun i => laneBytes (a.getD i 0))).length = 32 := by
    rw [length_flatMap_const _ 8 _ (fun _ _ => by simp [laneBytes])]; simp
  apply bits_ext
  · rw [bitsOf_length, hlen, List.length_take, hs]; rfl
  · intro i hi
    rw [bitsOf_length, hlen] at hi
    rw [bitsOf_getD]
    have e1 : i / 8 = 8 * (i / 64) + i / 8 % 8 := by omega
    have hx : i / 64 < 4 := by omega
    rw [e1, getD_flatMap _ 8 0 _ (fun _ _ => by simp [laneBytes]) 0 _ _ (by simpa using hx) (Nat.mod_lt _ (by decide)), getD_range hx]
    have h8 : i / 8 % 8 < 8 := Nat.mod_lt _ (by decide)
    have e2 : 8 * (i / 8 % 8) + i % 8 = i % 64 := by omega
    have e3 : (laneBytes (a.getD (i / 64) 0)).getD (i / 8 % 8) 0 = UInt8.ofNat (a.getD (i / 64) 0 >>> (8 * (i / 8 % 8))) := by
      simp [laneBytes, List.getD_eq_getElem?_getD, h8]
    rw [e3, UInt8.toNat_ofNat']
    have h7 : i % 8 < 8 := Nat.mod_lt _ (by decide)
    rw [Nat.testBit_mod_two_pow, Nat.testBit_shiftRight, e2]
    have h4 := h3 (i / 64) 0 (i % 64) (by omega) (by decide) (Nat.mod_lt _ (by decide))
    have e4 : 64 * (5 * 0 + i / 64) + i % 64 = i := by omega
    simp only [toArray, e4, KState.at, Nat.mod_eq_of_lt (by omega : i / 64 < 5), Nat.zero_mod, Nat.mul_zero, Nat.add_zero] at h4
    rw [h4]
    simp [h7, List.getD_eq_getElem?_getD, List.getElem?_take, (by omega : i < 256)]

/-- **C95** (SHA-3). The bits of the hash of a byte string are the bits that FIPS 202 defines. -/
theorem C95_sha3 (m : Bytes) : bitsOf (sha3_256 m).val = fipsSha3_256 (bitsOf m) := by
  have hl : (pad m).length = 136 * ((pad m).length / 136) := by rw [pad_length, Nat.mul_div_cancel _ (by decide), Nat.mul_comm]
  have h := absorb_rep ((pad m).length / 136) (pad m) hl start_rep
  have := out_bits h
  simp only [sha3_256, fipsSha3_256, fipsSponge]
  rw [this, ← bitsOf_pad, bitsOf_length]
  have e : 8 * (pad m).length / (1600 - 512) = (pad m).length / 136 := by omega
  rw [e, List.take_take]
  rfl

theorem keyBlock_bits (k : Key) (c : UInt8) :
    xorBits (bitsOf k.val ++ List.replicate (8 * (136 - k.val.length)) false) (bitsOf (List.replicate 136 c)) = bitsOf (keyBlock k c) := by
  have hk := k.property
  have hl : (bitsOf k.val ++ List.replicate (8 * (136 - k.val.length)) false).length = (bitsOf (List.replicate 136 c)).length := by
    rw [List.length_append, bitsOf_length, bitsOf_length, List.length_replicate, List.length_replicate, hk]; rfl
  have hl2 : (bitsOf (List.replicate 136 c)).length = 1088 := by rw [bitsOf_length, List.length_replicate]
  apply bits_ext
  · rw [xorBits_length hl, hl, hl2, bitsOf_length, keyBlock, List.length_map, List.length_append, List.length_replicate, hk]; rfl
  · intro i hi
    rw [xorBits_length hl, hl, hl2] at hi
    rw [xorBits_getD hl, getD_append_zeros, bitsOf_getD, bitsOf_getD, bitsOf_getD, ← Nat.testBit_xor, ← UInt8.toNat_xor]
    congr 2
    have h8 : i / 8 < 136 := by omega
    simp only [keyBlock, List.getD_eq_getElem?_getD, List.getElem?_map, List.getElem?_replicate, h8]
    by_cases h : i / 8 < k.val.length
    · simp [List.getElem?_append_left h, h]
    · rw [List.getElem?_append_right (by omega), List.getElem?_replicate, List.getElem?_eq_none (by omega)]
      have : i / 8 - k.val.length < 136 - KEY_SIZE := by rw [hk]; omega
      simp [this]

/-- **C95** (HMAC). The bits of a tag are the bits that FIPS 198-1 defines over the hash function of FIPS 202. -/
theorem C95_hmac (k : Key) (text : Bytes) : bitsOf (hmacSha3 k text).val = fipsHmac k.val text := by
  have hk := k.property
  have h1 : ¬ k.val.length = 136 := by rw [hk]; decide
  have h2 : ¬ k.val.length > 136 := by rw [hk]; decide
  simp only [hmacSha3, fipsHmac, if_neg h1, if_neg h2]
  rw [C95_sha3, bitsOf_append, C95_sha3, bitsOf_append, keyBlock_bits, keyBlock_bits]

theorem bitsOf_inj {a b : Bytes} (h : bitsOf a = bitsOf b) : a = b := by
  have hl : a.length = b.length := by
    have := congrArg List.length h
    rw [bitsOf_length, bitsOf_length] at this
    omega
  apply List.ext_getElem hl
  intro i h1 h2
  have e : ∀ z, z < 8 → a[i].toNat.testBit z = b[i].toNat.testBit z := by
    intro z hz
    have e1 : (8 * i + z) / 8 = i := by omega
    have e2 : (8 * i + z) % 8 = z := by omega
    have ea := bitsOf_getD a (8 * i + z)
    have eb := bitsOf_getD b (8 * i + z)
    rw [e1, e2] at ea eb
    rw [h, eb] at ea
    simpa [List.getD_eq_getElem?_getD, h1, h2] using ea.symm
  apply UInt8.toNat_inj.mp
  apply Nat.eq_of_testBit_eq
  intro z
  by_cases hz : z < 8
  · exact e z hz
  · have hp : 2 ^ 8 ≤ 2 ^ z := Nat.pow_le_pow_right (by decide) (by omega)
    rw [Nat.testBit_lt_two_pow (Nat.lt_of_lt_of_le (UInt8.toNat_lt _) hp), Nat.testBit_lt_two_pow (Nat.lt_of_lt_of_le (UInt8.toNat_lt _) hp)]

/-- **C95** (tags). The check of a Response succeeds exactly if its tag is the one the standards define of operation, user, resource, salt and challenge. -/
theorem C95_check (m ch : Message) (k : Key) (hm : m.operation = .Response) (hc : ch.operation = .Challenge) :
    m.checkAuthOk hmacSha3 k ch = .ok true ↔
      bitsOf m.auth.val = fipsHmac k.val (authText (opNumber m.operation) m.user.raw.toNat m.resource.raw.toNat m.salt.val ch.auth.val) := by
  rw [← C03_macText_spec, ← C95_hmac]
  simp only [Message.checkAuthOk, Message.authenticate, rassert, hm, hc, if_true, R.bind_ok, R.ok.injEq, decide_eq_true_eq]
  exact ⟨fun h => by rw [of_decide_eq_true h], fun h => decide_eq_true (Subtype.ext (bitsOf_inj h))⟩

/-- **C95** (tags). The same for a Knock, which is checked with a challenge of zeros. -/
theorem C95_check_knock (m : Message) (k : Key) (hm : m.operation = .Knock) :
    m.checkAuthOkNoChallenge hmacSha3 k = .ok true ↔
      bitsOf m.auth.val =
        fipsHmac k.val (authText (opNumber m.operation) m.user.raw.toNat m.resource.raw.toNat m.salt.val (List.replicate 32 0)) := by
  rw [show List.replicate 32 (0 : UInt8) = ZERO_AUTH.val from rfl, ← C03_macText_spec, ← C95_hmac]
  simp only [Message.checkAuthOkNoChallenge, Message.authenticateNoChallenge, Message.authenticate, rassert, hm, if_true, R.bind_ok, R.ok.injEq,
    decide_eq_true_eq]
  exact ⟨fun h => by rw [of_decide_eq_true h], fun h => decide_eq_true (Subtype.ext (bitsOf_inj h))⟩

/-- **C95** (collisions). A collision of the model's hash function, of which C87 speaks, is a collision of the function of FIPS 202. -/
theorem C95_collision (a b : Bytes) : Sha3Collision a b ↔ bitsOf a ≠ bitsOf b ∧ fipsSha3_256 (bitsOf a) = fipsSha3_256 (bitsOf b) := by
  rw [← C95_sha3, ← C95_sha3]
  exact ⟨fun h => ⟨fun e => h.1 (bitsOf_inj e), by rw [h.2]⟩, fun h => ⟨fun e => h.1 (by rw [e]), Subtype.ext (bitsOf_inj h.2)⟩⟩

/-! ## Concrete cases -/

/-- The hash of the empty string, from the bit-level definition (FIPS 202, example values). -/
example : fipsSha3_256 [] = bitsOf [0xA7, 0xFF, 0xC6, 0xF8, 0xBF, 0x1E, 0xD7, 0x66, 0x51, 0xC1, 0x47, 0x56, 0xA0, 0x61, 0xD6, 0x62,
    0xF5, 0x80, 0xFF, 0x4D, 0xE4, 0x3B, 0x49, 0xFA, 0x82, 0xD8, 0x0A, 0x4B, 0x80, 0xF8, 0x43, 0x4A] := by
  have h := C95_sha3 []
  have e : (sha3_256 []).val = [0xA7, 0xFF, 0xC6, 0xF8, 0xBF, 0x1E, 0xD7, 0x66, 0x51, 0xC1, 0x47, 0x56, 0xA0, 0x61, 0xD6, 0x62,
    0xF5, 0x80, 0xFF, 0x4D, 0xE4, 0x3B, 0x49, 0xFA, 0x82, 0xD8, 0x0A, 0x4B, 0x80, 0xF8, 0x43, 0x4A] := by decide +kernel
  rw [e] at h
  exact h.symm

/-- The tag that a unit test expects (`/repo/letmein-proto/src/lib.rs:442-464`). -/
def testTag : Auth :=
  ⟨[99, 153, 229, 224, 255, 22, 33, 154, 94, 191, 98, 153, 196, 29, 202, 24, 154, 47, 118, 25, 189, 10, 178, 234, 95, 129, 184, 174, 249, 254, 6, 0], rfl⟩

/-- It is the one that the standards define. -/
theorem testTag_fips : fipsHmac (List.replicate 32 0x9E) (authText 0 0xA423DDA7 0xBC5D8077 (List.replicate 8 0x4A) (List.replicate 32 0)) =
    bitsOf testTag.val := by
  have h := C95_hmac (Arr.replicate 32 0x9E) (testKnock.macText ZERO_AUTH)
  have e : (hmacSha3 (Arr.replicate 32 0x9E) (testKnock.macText ZERO_AUTH)).val = testTag.val := by decide +kernel
  rw [e, C03_macText_spec] at h
  exact h.symm

/-- A Knock with this tag passes the check, and with any other tag it does not. -/
example : ({ testKnock with auth := testTag } : Message).checkAuthOkNoChallenge hmacSha3 (Arr.replicate 32 0x9E) = .ok true ∧
    ∀ t, t ≠ testTag → ({ testKnock with auth := t } : Message).checkAuthOkNoChallenge hmacSha3 (Arr.replicate 32 0x9E) ≠ .ok true := by
  constructor
  · exact (C95_check_knock _ _ rfl).2 testTag_fips.symm
  · intro t ht h
    exact ht (Subtype.ext (bitsOf_inj (((C95_check_knock _ _ rfl).1 h).trans testTag_fips)))

end Letmein.Props
