import Verif.Model.Text

/-!
# Lemmas about the text primitives
-/

namespace Letmein

theorem splitOn_ne_nil (c : Char) (s : Str) : splitOn c s ≠ [] := by
  induction s with
  | nil => simp [splitOn]
  | cons x xs ih =>
    rw [splitOn]
    split
    · simp
    · split <;> simp

theorem splitOn_of_not_mem {c : Char} {s : Str} (h : c ∉ s) : splitOn c s = [s] := by
  induction s with
  | nil => rfl
  | cons x xs ih =>
    simp at h
    rw [splitOn, if_neg (fun he => h.1 he.symm), ih h.2]

theorem splitOn_append_sep {c : Char} {p : Str} (h : c ∉ p) (s : Str) : splitOn c (p ++ c :: s) = p :: splitOn c s := by
  induction p with
  | nil => simp [splitOn]
  | cons x xs ih =>
    simp at h
    rw [List.cons_append, splitOn, if_neg (fun he => h.1 he.symm), ih h.2]

/-- Splitting what was joined. -/
theorem splitOn_joinWith {c : Char} {ps : List Str} (hne : ps ≠ []) (h : ∀ p ∈ ps, c ∉ p) :
    splitOn c (joinWith c ps) = ps := by
  induction ps with
  | nil => exact absurd rfl hne
  | cons p ps ih =>
    cases ps with
    | nil => rw [joinWith, splitOn_of_not_mem (h p (by simp))]
    | cons q ps =>
      rw [joinWith, splitOn_append_sep (h p (by simp)), ih (by simp) (fun p hp => h p (by simp [hp]))]

/-- Joining what was split. -/
theorem joinWith_splitOn (c : Char) (s : Str) : joinWith c (splitOn c s) = s := by
  induction s with
  | nil => rfl
  | cons x xs ih =>
    rw [splitOn]
    split
    · rename_i h
      subst h
      cases hs : splitOn x xs with
      | nil => exact absurd hs (splitOn_ne_nil _ _)
      | cons p ps => rw [hs] at ih; rw [joinWith, ih]; rfl
    · cases hs : splitOn c xs with
      | nil => exact absurd hs (splitOn_ne_nil _ _)
      | cons p ps =>
        rw [hs] at ih
        cases ps with
        | nil => simp [joinWith] at ih ⊢; exact ih
        | cons q ps => simp [joinWith] at ih ⊢; exact ih

/-- No piece of a split contains the separator. -/
theorem not_mem_of_mem_splitOn {c : Char} {s p : Str} (h : p ∈ splitOn c s) : c ∉ p := by
  induction s generalizing p with
  | nil => simp [splitOn] at h; simp [h]
  | cons x xs ih =>
    rw [splitOn] at h
    split at h
    · simp at h
      rcases h with h | h
      · simp [h]
      · exact ih h
    · rename_i hx
      cases hs : splitOn c xs with
      | nil => exact absurd hs (splitOn_ne_nil _ _)
      | cons q ps =>
        rw [hs] at h ih
        simp at h
        rcases h with h | h
        · subst h
          simp only [List.mem_cons, not_or]
          exact ⟨fun he => hx he.symm, ih (by simp)⟩
        · exact ih (by simp [h])

/-! ### Numbers -/

/-- Value of a digit string. -/
def readDigits (val : Char → Nat) (b : Nat) (s : Str) : Nat := s.foldl (fun a c => a * b + val c) 0

theorem readDigits_append (val : Char → Nat) (b : Nat) (s : Str) (c : Char) :
    readDigits val b (s ++ [c]) = readDigits val b s * b + val c := by simp [readDigits]

theorem readDigits_showDigits (digit : Nat → Char) (val : Char → Nat) (b : Nat) (hb : 2 ≤ b)
    (hv : ∀ n, n < b → val (digit n) = n) (fuel n : Nat) (h : n < fuel) :
    readDigits val b (showDigits digit b fuel n) = n := by
  induction fuel generalizing n with
  | zero => omega
  | succ fuel ih =>
    rw [showDigits]
    split
    · rename_i hn; simp [readDigits, hv n hn]
    · rename_i hn
      have hdiv : n / b < fuel := by
        have : n / b < n := Nat.div_lt_self (by omega) (by omega)
        omega
      rw [readDigits_append, ih _ hdiv, hv _ (Nat.mod_lt _ (by omega))]
      have := Nat.div_add_mod n b
      rw [Nat.mul_comm] at this
      exact this

theorem showDigits_ne_nil (digit : Nat → Char) (b fuel n : Nat) : showDigits digit b (fuel + 1) n ≠ [] := by
  rw [showDigits]
  split <;> simp

theorem mem_showDigits {digit : Nat → Char} {b : Nat} (hb : 0 < b) {fuel n : Nat} {c : Char}
    (h : c ∈ showDigits digit b fuel n) : ∃ d, d < b ∧ c = digit d := by
  induction fuel generalizing n with
  | zero => simp [showDigits] at h
  | succ fuel ih =>
    rw [showDigits] at h
    split at h
    · rename_i hn; simp at h; exact ⟨n, hn, h⟩
    · simp at h
      rcases h with h | h
      · exact ih h
      · exact ⟨_, Nat.mod_lt _ hb, h⟩

/-- Value of a lower-case digit. -/
def digitVal (c : Char) : Nat := if c.toNat < 58 then c.toNat - 48 else c.toNat - 87

theorem digitVal_digitLower : ∀ n, n < 16 → digitVal (digitLower n) = n := by decide

theorem showNat_inj {a b : Nat} (h : showNat a = showNat b) : a = b := by
  have := congrArg (readDigits digitVal 10) h
  rwa [showNat, showNat, readDigits_showDigits digitLower digitVal 10 (by omega) (fun n hn => digitVal_digitLower n (by omega)) _ _ (by omega),
    readDigits_showDigits digitLower digitVal 10 (by omega) (fun n hn => digitVal_digitLower n (by omega)) _ _ (by omega)] at this

theorem showHexLower_inj {a b : Nat} (h : showHexLower a = showHexLower b) : a = b := by
  have := congrArg (readDigits digitVal 16) h
  rwa [showHexLower, showHexLower, readDigits_showDigits digitLower digitVal 16 (by omega) digitVal_digitLower _ _ (by omega),
    readDigits_showDigits digitLower digitVal 16 (by omega) digitVal_digitLower _ _ (by omega)] at this

theorem digitLower_spec : ∀ d, d < 16 → digitLower d ∉ [':', '.', '/', ' '] := by decide

theorem not_mem_showNat {c : Char} (hc : c ∈ [':', '.', '/', ' ']) (n : Nat) : c ∉ showNat n := by
  intro h
  obtain ⟨d, hd, rfl⟩ := mem_showDigits (by omega) h
  exact digitLower_spec d (by omega) hc

theorem not_mem_showHexLower {c : Char} (hc : c ∈ [':', '.', '/', ' ']) (n : Nat) : c ∉ showHexLower n := by
  intro h
  obtain ⟨d, hd, rfl⟩ := mem_showDigits (by omega) h
  exact digitLower_spec d (by omega) hc

theorem showNat_ne_nil (n : Nat) : showNat n ≠ [] := showDigits_ne_nil _ _ _ _
theorem showHexLower_ne_nil (n : Nat) : showHexLower n ≠ [] := showDigits_ne_nil _ _ _ _

theorem not_mem_joinWith {c d : Char} {ps : List Str} (hcd : d ≠ c) (h : ∀ p ∈ ps, d ∉ p) : d ∉ joinWith c ps := by
  induction ps with
  | nil => simp [joinWith]
  | cons p ps ih =>
    cases ps with
    | nil => rw [joinWith]; exact h p (by simp)
    | cons q ps =>
      rw [joinWith]
      simp only [List.mem_append, List.mem_cons, not_or]
      exact ⟨h p (by simp), hcd, ih (fun p hp => h p (by simp [hp]))⟩

/-! ### IPv4 -/

theorem showIpv4_inj {a b : Arr 4} (h : showIpv4 a = showIpv4 b) : a = b := by
  have hne : ∀ x : Arr 4, x.val.map (fun b => showNat b.toNat) ≠ [] := by
    intro x; have := x.property; cases hx : x.val with
    | nil => rw [hx] at this; simp at this
    | cons => simp
  have h2 := congrArg (splitOn '.') h
  rw [showIpv4, showIpv4, splitOn_joinWith (hne a), splitOn_joinWith (hne b)] at h2
  · apply Subtype.ext
    refine (List.map_inj_right ?_).1 h2
    intro x y hxy
    exact UInt8.toNat_inj.1 (showNat_inj hxy)
  all_goals
    intro p hp
    obtain ⟨_, _, rfl⟩ := List.mem_map.1 hp
    exact not_mem_showNat (by simp) _

theorem showIpv4_no {c : Char} (hc : c ∈ [':', '/', ' ']) (a : Arr 4) : c ∉ showIpv4 a := by
  refine not_mem_joinWith ?_ ?_
  · intro h; subst h; simp at hc
  · intro p hp
    obtain ⟨_, _, rfl⟩ := List.mem_map.1 hp
    exact not_mem_showNat (by simp at hc ⊢; rcases hc with h | h | h <;> simp [h]) _

/-- An IPv4 text contains dots. -/
theorem dot_mem_showIpv4 (a : Arr 4) : '.' ∈ showIpv4 a := by
  obtain ⟨v, hv⟩ := a
  match v, hv with
  | [x, y, z, w], _ => simp [showIpv4, joinWith]

/-! ### IPv6 -/

/-- Inverse of `segments`. -/
def unsegments : List Nat → Bytes
  | [] => []
  | s :: rest => UInt8.ofNat (s / 256) :: UInt8.ofNat s :: unsegments rest

theorem unsegments_segments (l : Bytes) (h : l.length % 2 = 0) : unsegments (segments l) = l := by
  induction l using segments.induct with
  | case1 a b rest ih =>
    have ha := a.toNat_lt
    have hb := b.toNat_lt
    rw [segments, unsegments, ih (by simp at h; omega)]
    congr 1
    · apply UInt8.toNat_inj.1
      rw [UInt8.toNat_ofNat']
      omega
    · congr 1
      apply UInt8.toNat_inj.1
      rw [UInt8.toNat_ofNat']
      omega
  | case2 l hl =>
    match l, hl with
    | [], _ => rfl
    | [a], _ => simp at h
    | a :: b :: r, hl => exact absurd rfl (hl a b r)

theorem segments_length (l : Bytes) : (segments l).length = l.length / 2 := by
  induction l using segments.induct with
  | case1 a b rest ih => rw [segments]; simp [ih]; omega
  | case2 l hl =>
    match l, hl with
    | [], _ => rfl
    | [a], _ => simp [segments]
    | a :: b :: r, hl => exact absurd rfl (hl a b r)

/-- `run` designates zeros of `l`. -/
def ZerosAt (l : List Nat) (run : Nat × Nat) : Prop :=
  run.2 = 0 ∨ (run.1 + run.2 ≤ l.length ∧ (l.drop run.1).take run.2 = List.replicate run.2 0)

theorem ZerosAt.append {l : List Nat} {run : Nat × Nat} (h : ZerosAt l run) (m : List Nat) : ZerosAt (l ++ m) run := by
  rcases h with h | ⟨h1, h2⟩
  · exact .inl h
  · refine .inr ⟨by simp; omega, ?_⟩
    rw [List.drop_append, List.take_append]
    have : run.2 - (l.drop run.1).length = 0 := by rw [List.length_drop]; omega
    rw [this, h2]
    simp

theorem zeroRun_spec (rest pre : List Nat) (cur longest : Nat × Nat) (hc : ZerosAt pre cur)
    (hce : cur.2 ≠ 0 → cur.1 + cur.2 = pre.length) (hl : ZerosAt pre longest) :
    ZerosAt (pre ++ rest) (zeroRun rest pre.length cur longest) := by
  induction rest generalizing pre cur longest with
  | nil => simpa [zeroRun] using hl
  | cons s rest ih =>
    rw [zeroRun]
    have e : pre ++ s :: rest = (pre ++ [s]) ++ rest := by simp
    split
    · rename_i hs
      subst hs
      have hcur : ZerosAt (pre ++ [0]) ((if cur.2 = 0 then pre.length else cur.1), cur.2 + 1) := by
        right
        by_cases h0 : cur.2 = 0
        · simp [h0]
        · have := hce h0
          rcases hc with h | ⟨h1, h2⟩
          · exact absurd h h0
          · simp only [h0, if_false]
            refine ⟨by simp; omega, ?_⟩
            have hd : (List.drop cur.1 pre).length = cur.2 := by rw [List.length_drop]; omega
            have hd2 : List.drop cur.1 pre = List.replicate cur.2 0 := by
              rw [← h2, List.take_of_length_le (by omega)]
            rw [List.drop_append, hd2]
            have : cur.1 - pre.length = 0 := by omega
            rw [this, List.drop_zero, List.replicate_succ', List.take_of_length_le (by simp)]
      have := ih (pre ++ [0]) _ (if cur.2 + 1 > longest.2 then
        ((if cur.2 = 0 then pre.length else cur.1), cur.2 + 1) else longest) hcur (by
          intro _
          by_cases h0 : cur.2 = 0
          · simp [h0]
          · simp only [h0, if_false, List.length_append, List.length_singleton]; have := hce h0; omega)
        (by split
            · exact hcur
            · exact hl.append _)
      rw [e]
      simpa using this
    · have := ih (pre ++ [s]) (0, 0) longest (.inl rfl) (by simp) (hl.append _)
      rw [e]
      simpa using this

/-- The pieces between the colons. -/
def ipTokens (left right : List Str) : List Str :=
  (if left = [] then [[]] else left) ++ [[]] ++ (if right = [] then [[]] else right)

theorem joinWith_cons_ne {c : Char} {p : Str} {ps : List Str} (h : ps ≠ []) :
    joinWith c (p :: ps) = p ++ c :: joinWith c ps := by
  cases ps with
  | nil => exact absurd rfl h
  | cons q ps => rfl

theorem joinWith_append {c : Char} {ps qs : List Str} (hp : ps ≠ []) (hq : qs ≠ []) :
    joinWith c (ps ++ qs) = joinWith c ps ++ c :: joinWith c qs := by
  induction ps with
  | nil => exact absurd rfl hp
  | cons p ps ih =>
    cases ps with
    | nil => simp [joinWith_cons_ne hq, joinWith]
    | cons q ps =>
      rw [List.cons_append, joinWith_cons_ne (by simp), ih (by simp), joinWith_cons_ne (p := p) (by simp)]
      simp

theorem join_tokens (left right : List Str) :
    joinWith ':' left ++ "::".toList ++ joinWith ':' right = joinWith ':' (ipTokens left right) := by
  have h1 : joinWith ':' (if left = [] then [[]] else left) = joinWith ':' left := by
    split
    · rename_i h; subst h; rfl
    · rfl
  have h2 : joinWith ':' (if right = [] then [[]] else right) = joinWith ':' right := by
    split
    · rename_i h; subst h; rfl
    · rfl
  have n1 : (if left = [] then [[]] else left) ≠ [] := by split <;> simp_all
  have n2 : (if right = [] then [[]] else right) ≠ [] := by split <;> simp_all
  rw [ipTokens, joinWith_append (by simp) n2, joinWith_append n1 (by simp), h1, h2]
  simp [joinWith]

/-- Left and right part back from the pieces. -/
def untokens (ts : List Str) : List Str × List Str :=
  (ts.takeWhile (· ≠ []), (ts.dropWhile (· ≠ [])).filter (· ≠ []))

theorem untokens_tokens {left right : List Str} (hl : ∀ t ∈ left, t ≠ []) (hr : ∀ t ∈ right, t ≠ []) :
    untokens (ipTokens left right) = (left, right) := by
  have hf : right.filter (· ≠ []) = right := List.filter_eq_self.2 (by simpa using hr)
  have hf' : (if right = [] then [[]] else right).filter (· ≠ []) = right := by
    split
    · rename_i h; subst h; rfl
    · exact hf
  unfold untokens ipTokens
  by_cases h : left = []
  · subst h
    simp only [if_true, List.singleton_append, List.cons_append, List.nil_append]
    rw [List.takeWhile_cons_of_neg (by simp), List.dropWhile_cons_of_neg (by simp)]
    rw [List.filter_cons_of_neg (by simp), List.filter_cons_of_neg (by simp), hf']
  · simp only [h, if_false, List.append_assoc]
    have hp : ∀ a ∈ left, decide (a ≠ []) = true := by simpa using hl
    rw [List.takeWhile_append_of_pos hp, List.dropWhile_append_of_pos hp]
    rw [List.singleton_append, List.takeWhile_cons_of_neg (by simp), List.dropWhile_cons_of_neg (by simp),
      List.filter_cons_of_neg (by simp), hf']
    simp

/-- What `showIpv6` prints between the colons, for an address that is not IPv4-mapped. -/
theorem showIpv6_tokens {o : Arr 16} (h : toIpv4Mapped o = none) :
    ∃ ts, showIpv6 o = joinWith ':' ts ∧ 3 ≤ ts.length ∧ (∀ t ∈ ts, ':' ∉ t ∧ '.' ∉ t ∧ '/' ∉ t) ∧
      ∃ l r, untokens ts = (l.map showHexLower, r.map showHexLower) ∧
        segments o.val = l ++ List.replicate (8 - l.length - r.length) 0 ++ r := by
  have hlen : (segments o.val).length = 8 := by rw [segments_length, o.property]
  have hz := zeroRun_spec (segments o.val) [] (0, 0) (0, 0) (.inl rfl) (by simp) (.inl rfl)
  simp only [List.nil_append, List.length_nil] at hz
  simp only [showIpv6, h]
  generalize segments o.val = segs at *
  generalize zeroRun segs 0 (0, 0) (0, 0) = run at *
  have hhex : ∀ (l : List Nat) (t : Str), t ∈ l.map showHexLower → t ≠ [] ∧ ':' ∉ t ∧ '.' ∉ t ∧ '/' ∉ t := by
    intro l t ht
    obtain ⟨_, _, rfl⟩ := List.mem_map.1 ht
    exact ⟨showHexLower_ne_nil _, not_mem_showHexLower (by simp) _, not_mem_showHexLower (by simp) _,
      not_mem_showHexLower (by simp) _⟩
  split
  · rename_i hr
    refine ⟨_, join_tokens _ _, ?_, ?_, segs.take run.1, segs.drop (run.1 + run.2), ?_, ?_⟩
    · unfold ipTokens
      split <;> split <;> simp
      · rename_i h1 h2
        have : 0 < (segs.drop (run.1 + run.2)).length := List.length_pos_iff.2 (by simpa using h2)
        simp at this; omega
      · rename_i h1 h2
        have : 0 < (segs.take run.1).length := List.length_pos_iff.2 (by simpa using h1)
        simp at this; omega
      · rename_i h1 h2
        rw [List.map_eq_nil_iff] at h1 h2
        have : 0 < (segs.take run.1).length := List.length_pos_iff.2 h1
        have : 0 < (segs.drop (run.1 + run.2)).length := List.length_pos_iff.2 h2
        simp at *; omega
    · intro t ht
      simp only [ipTokens, List.mem_append, List.mem_singleton] at ht
      rcases ht with (ht | ht) | ht
      · split at ht
        · simp at ht; simp [ht]
        · exact (hhex _ _ ht).2
      · simp [ht]
      · split at ht
        · simp at ht; simp [ht]
        · exact (hhex _ _ ht).2
    · exact untokens_tokens (fun t ht => (hhex _ t ht).1) (fun t ht => (hhex _ t ht).1)
    · rcases hz with hz | ⟨hz1, hz2⟩
      · omega
      · have e1 : (segs.take run.1).length = run.1 := by simp; omega
        have e2 : (segs.drop (run.1 + run.2)).length = 8 - (run.1 + run.2) := by simp [hlen]
        have e3 : 8 - run.1 - (8 - (run.1 + run.2)) = run.2 := by omega
        rw [e1, e2, e3, ← hz2, List.append_assoc, ← List.drop_drop, List.take_append_drop, List.take_append_drop]
  · refine ⟨segs.map showHexLower, rfl, by simp [hlen], fun t ht => (hhex _ _ ht).2, segs, [], ?_, ?_⟩
    · unfold untokens
      have hp : ∀ a ∈ segs.map showHexLower, decide (a ≠ []) = true := by
        intro a ha; simpa using (hhex _ _ ha).1
      have h1 := List.takeWhile_append_of_pos (l₂ := []) hp
      have h2 := List.dropWhile_append_of_pos (l₂ := []) hp
      simp only [List.append_nil, List.takeWhile_nil, List.dropWhile_nil] at h1 h2
      rw [h1, h2]
      simp
    · simp [hlen]

theorem showIpv6_inj {a b : Arr 16} (h : showIpv6 a = showIpv6 b) : a = b := by
  have mapped : ∀ (x : Arr 16) (y : Arr 4), toIpv4Mapped x = some y →
      x.val = [0, 0, 0, 0, 0, 0, 0, 0, 0, 0, 0xFF, 0xFF] ++ y.val := by
    intro x y hxy
    unfold toIpv4Mapped at hxy
    split at hxy
    · rename_i ht
      injection hxy with hxy
      rw [← hxy, ← ht]
      simp
    · cases hxy
  have dots : ∀ (x y : Arr 16) (z : Arr 4), toIpv4Mapped x = some z → toIpv4Mapped y = none → showIpv6 x ≠ showIpv6 y := by
    intro x y z hx hy heq
    obtain ⟨ts, h1, _, h3, _⟩ := showIpv6_tokens hy
    have : '.' ∈ showIpv6 x := by
      unfold showIpv6
      rw [hx]
      simp [dot_mem_showIpv4]
    rw [heq, h1] at this
    exact not_mem_joinWith (by decide) (fun p hp => (h3 p hp).2.1) this
  cases ha : toIpv4Mapped a with
  | some x =>
    cases hb : toIpv4Mapped b with
    | some y =>
      simp only [showIpv6, ha, hb] at h
      have := showIpv4_inj (List.append_cancel_left h)
      apply Subtype.ext
      rw [mapped a x ha, mapped b y hb, this]
    | none => exact absurd h (dots a b x ha hb)
  | none =>
    cases hb : toIpv4Mapped b with
    | some y => exact absurd h.symm (dots b a y hb ha)
    | none =>
      obtain ⟨ts, h1, h2, h3, l, r, h4, h5⟩ := showIpv6_tokens ha
      obtain ⟨ts', h1', h2', h3', l', r', h4', h5'⟩ := showIpv6_tokens hb
      rw [h1, h1'] at h
      have h := congrArg (splitOn ':') h
      rw [splitOn_joinWith (by intro he; simp [he] at h2) (fun p hp => (h3 p hp).1),
        splitOn_joinWith (by intro he; simp [he] at h2') (fun p hp => (h3' p hp).1)] at h
      rw [h, h4', Prod.mk.injEq] at h4
      have el := (List.map_inj_right (fun _ _ => showHexLower_inj)).1 h4.1
      have er := (List.map_inj_right (fun _ _ => showHexLower_inj)).1 h4.2
      rw [el, er, ← h5] at h5'
      apply Subtype.ext
      have := congrArg unsegments h5'
      rw [unsegments_segments _ (by rw [b.property]), unsegments_segments _ (by rw [a.property])] at this
      exact this.symm

/-- An IPv6 text contains colons. -/
theorem colon_mem_showIpv6 (x : Arr 16) : ':' ∈ showIpv6 x := by
  cases hx : toIpv4Mapped x with
  | some y => unfold showIpv6; rw [hx]; simp
  | none =>
    obtain ⟨ts, h1, h2, _⟩ := showIpv6_tokens hx
    rw [h1]
    match ts, h2 with
    | p :: q :: ts, _ => simp [joinWith]

/-- Every address has its own text. -/
theorem showIp_inj {a b : IpAddr} (h : showIp a = showIp b) : a = b := by
  have colon := colon_mem_showIpv6
  cases a with
  | v4 x =>
    cases b with
    | v4 y => rw [showIpv4_inj h]
    | v6 y =>
      have := colon y
      change showIpv4 x = showIpv6 y at h
      rw [← h] at this
      exact absurd this (showIpv4_no (by simp) x)
  | v6 x =>
    cases b with
    | v4 y =>
      have := colon x
      change showIpv6 x = showIpv4 y at h
      rw [h] at this
      exact absurd this (showIpv4_no (by simp) y)
    | v6 y => rw [showIpv6_inj h]

/-- No address text contains a slash. -/
theorem slash_not_mem_showIp (a : IpAddr) : '/' ∉ showIp a := by
  cases a with
  | v4 x => exact showIpv4_no (by simp) x
  | v6 x =>
    change '/' ∉ showIpv6 x
    cases hx : toIpv4Mapped x with
    | some y =>
      unfold showIpv6; rw [hx]
      simp only [List.mem_append, not_or]
      exact ⟨by decide, showIpv4_no (by simp) y⟩
    | none =>
      obtain ⟨ts, h1, _, h3, _⟩ := showIpv6_tokens hx
      rw [h1]
      exact not_mem_joinWith (by decide) (fun p hp => (h3 p hp).2.2)

end Letmein
