import Verif.Lemmas.ConfPort

/-!
# Lemmas: the `.ini` parser
-/

namespace Letmein

open Spec

/-! ### One line -/

theorem iniLine_ignored {l : Str} (h : IgnoredLine l) (st : IniState) : iniLine st l = .ok st := by
  unfold iniLine
  simp only
  rcases h with h | ⟨w, r, rfl, hw⟩
  · rw [trimStart_blank h]; simp
  · rw [trimStart_blank_append hw, trimStart_of_head (by intro c hc; simp at hc; subst hc; decide)]
    simp

theorem iniLine_header {l n : Str} (h : HeaderLine l n) (st : IniState) :
    iniLine st l = if (assocGet st.sections n).isSome then .err else .ok { sections := assocSet st.sections n [], inSection := some n } := by
  obtain ⟨w, w', rfl, hw, hw', hn⟩ := h
  unfold iniLine
  simp only
  rw [List.append_assoc, trimStart_blank_append hw, List.cons_append,
    trimStart_of_head (by intro c hc; simp at hc; subst hc; decide)]
  have e : '[' :: (n ++ ']' :: w') = ('[' :: n ++ [']']) ++ w' := by simp
  have e2 : trimEnd ('[' :: (n ++ ']' :: w')) = '[' :: n ++ [']'] := by
    rw [e, trimEnd_append_blank hw', trimEnd_of_last]
    intro c hc
    rw [List.getLast?_append] at hc
    simp at hc; subst hc; decide
  rw [e2, if_neg (by simp), if_neg (by simp), if_pos (by simp), if_pos (by rw [List.getLast?_append]; simp)]
  simp [hn]

theorem iniLine_assign {l n v : Str} (h : AssignLine l n v) (st : IniState) :
    iniLine st l = match st.inSection with
      | none => .err
      | some sect => match assocGet st.sections sect with
        | none => .panic
        | some opts => .ok { st with sections := assocSet st.sections sect (assocSet opts n v) } := by
  obtain ⟨w, w', rfl, hw, hw', heq, ⟨c, hc, hcw, hc1, hc2⟩, c', hc', hcw'⟩ := h
  unfold iniLine
  simp only
  obtain ⟨n', rfl⟩ : ∃ n', n = c :: n' := by
    cases n with
    | nil => cases hc
    | cons x n' => simp at hc; exact ⟨n', by rw [hc]⟩
  have e0 : w ++ (c :: n') ++ w' ++ '=' :: v = w ++ ((c :: n') ++ w' ++ '=' :: v) := by simp
  rw [e0, trimStart_blank_append hw, trimStart_of_head (by intro x hx; simp at hx; subst hx; exact hcw)]
  have hne : '=' ∉ (c :: n') ++ w' := by
    rw [List.mem_append, not_or]
    refine ⟨heq, fun hm => ?_⟩
    have := hw' _ hm
    revert this; decide
  rw [if_neg (by simp), if_neg (by simpa using hc1), if_neg (by simpa using hc2), findIdx_append hne]
  simp only
  have e1 : ((c :: n') ++ w' ++ '=' :: v).take ((c :: n') ++ w').length = (c :: n') ++ w' := by rw [List.take_left]
  have e2 : ((c :: n') ++ w' ++ '=' :: v).drop (((c :: n') ++ w').length + 1) = v := by
    rw [List.drop_append, List.drop_of_length_le (by omega)]
    simp
  rw [e1, e2, trimEnd_append_blank hw', trimEnd_of_last (by intro x hx; rw [hc'] at hx; injection hx with hx; subst hx; exact hcw')]
  cases st.inSection with
  | none => rfl
  | some sect =>
    simp only
    rw [if_pos (by simp)]
    cases assocGet st.sections sect <;> rfl

/-- Every line is of one of the kinds, or rejected. -/
theorem line_cases (l : Str) : IgnoredLine l ∨ (∃ n, HeaderLine l n) ∨ (∃ n v, AssignLine l n v) ∨ ∀ st, iniLine st l = .err := by
  obtain ⟨w, hl, hw, hhead⟩ := trimStart_spec l
  generalize ht : trimStart l = t at *
  cases t with
  | nil => left; left; rw [hl, List.append_nil]; exact hw
  | cons c t =>
    have hcw := hhead c rfl
    by_cases h1 : c = '#'
    · left; right; subst h1; exact ⟨w, t, hl, hw⟩
    by_cases h2 : c = '['
    · subst h2
      obtain ⟨b, hb, hbw, hlast⟩ := trimEnd_spec ('[' :: t)
      generalize ht' : trimEnd ('[' :: t) = t' at *
      by_cases h3 : t'.getLast? = some ']'
      · obtain ⟨m', rfl⟩ := List.getLast?_eq_some_iff.1 h3
        cases m' with
        | nil => simp at hb
        | cons x m =>
          simp only [List.cons_append, List.cons.injEq] at hb
          obtain ⟨rfl, hb⟩ := hb
          by_cases hm : m = []
          · right; right; right
            intro st
            unfold iniLine
            simp only
            rw [ht, if_neg (by simp), if_neg (by simp), if_pos (by simp), ht', if_pos h3]
            simp [hm]
          · right; left
            refine ⟨m, w, b, ?_, hw, hbw, hm⟩
            rw [hl, hb]; simp
      · right; right; right
        intro st
        unfold iniLine
        simp only
        rw [ht, if_neg (by simp), if_neg (by simp), if_pos (by simp), ht', if_neg h3]
    · by_cases h3 : '=' ∈ (c :: t)
      · obtain ⟨a, v, hv, ha⟩ := List.eq_append_cons_of_mem h3
        cases a with
        | nil =>
          right; right; right
          intro st
          unfold iniLine
          simp only
          rw [ht, if_neg (by simp), if_neg (by simpa using h1), if_neg (by simpa using h2)]
          cases st.inSection with
          | none => rfl
          | some s =>
            simp only
            rw [hv, findIdx_append ha]
            simp
        | cons x a =>
          right; right; left
          simp only [List.cons_append, List.cons.injEq] at hv
          obtain ⟨rfl, hv⟩ := hv
          obtain ⟨b, hb, hbw, hlast⟩ := trimEnd_spec (c :: a)
          generalize trimEnd (c :: a) = n at *
          cases n with
          | nil =>
            rw [List.nil_append] at hb
            rw [hbw c (by rw [← hb]; simp)] at hcw; cases hcw
          | cons y n =>
            simp only [List.cons_append, List.cons.injEq] at hb
            obtain ⟨rfl, hb⟩ := hb
            refine ⟨c :: n, v, w, b, ?_, hw, hbw, ?_, ⟨c, rfl, hcw, h1, h2⟩, ?_⟩
            · rw [hl, hv, hb]; simp
            · intro hm; apply ha; rw [hb]
              rcases List.mem_cons.1 hm with hm | hm
              · rw [hm]; exact List.mem_cons_self
              · simp [hm]
            · cases hlast' : (c :: n).getLast? with
              | none => simp at hlast'
              | some z => exact ⟨z, rfl, hlast z hlast'⟩
      · right; right; right
        intro st
        unfold iniLine
        simp only
        rw [ht, if_neg (by simp), if_neg (by simpa using h1), if_neg (by simpa using h2), findIdx_not_mem h3]
        cases st.inSection <;> rfl

/-! ### Assignments of a section -/

/-- The options after some assignments. -/
def foldSet (opts : List (Str × Str)) (as : List (Str × Str)) : List (Str × Str) := as.foldl (fun o e => assocSet o e.1 e.2) opts

theorem foldSet_nodup {opts : List (Str × Str)} (h : (opts.map (·.1)).Nodup) (as : List (Str × Str)) : ((foldSet opts as).map (·.1)).Nodup := by
  induction as generalizing opts with
  | nil => exact h
  | cons e as ih => exact ih (assocSet_nodup h _ _)

theorem foldSet_get (opts as : List (Str × Str)) (n v : Str) :
    assocGet (foldSet opts as) n = some v ↔ LastValue as n v ∨ ((∀ e ∈ as, e.1 ≠ n) ∧ assocGet opts n = some v) := by
  induction as generalizing opts with
  | nil => simp [foldSet, LastValue]
  | cons e as ih =>
    obtain ⟨m, w⟩ := e
    have e1 : foldSet opts ((m, w) :: as) = foldSet (assocSet opts m w) as := rfl
    rw [e1, ih]
    constructor
    · rintro (⟨a, b, rfl, hb⟩ | ⟨h1, h2⟩)
      · exact .inl ⟨(m, w) :: a, b, rfl, hb⟩
      · by_cases hm : m = n
        · subst hm
          rw [assocGet_set_self] at h2
          injection h2 with h2; subst h2
          exact .inl ⟨[], as, rfl, h1⟩
        · rw [assocGet_set_ne _ _ (fun e => hm e.symm)] at h2
          refine .inr ⟨?_, h2⟩
          intro e he
          rcases List.mem_cons.1 he with rfl | he
          · exact hm
          · exact h1 e he
    · rintro (⟨a, b, e2, hb⟩ | ⟨h1, h2⟩)
      · cases a with
        | nil =>
          simp only [List.nil_append, List.cons.injEq, Prod.mk.injEq] at e2
          obtain ⟨⟨rfl, rfl⟩, rfl⟩ := e2
          exact .inr ⟨hb, assocGet_set_self _ _ _⟩
        | cons x a =>
          simp only [List.cons_append, List.cons.injEq] at e2
          exact .inl ⟨a, b, e2.2, hb⟩
      · have hm : m ≠ n := h1 (m, w) (by simp)
        exact .inr ⟨fun e he => h1 e (by simp [he]), by rw [assocGet_set_ne _ _ (fun e => hm e.symm)]; exact h2⟩

theorem lastValue_iff {as : List (Str × Str)} {n v : Str} : LastValue as n v ↔ assocGet (foldSet [] as) n = some v := by
  rw [foldSet_get]; simp [assocGet]

/-! ### All lines -/

/-- The sections after reading some more of a document. -/
def lookupAfter (d : Doc) (old : Str → Option (List (Str × Str))) (m : Str) : Option (List (Str × Str)) :=
  match assocGet d m with
  | some as => some (foldSet [] as)
  | none => old m

theorem iniLines_in {ls : List Str} {st st' : IniState} {n : Str} {opts : List (Str × Str)} (hs : st.inSection = some n)
    (ho : assocGet st.sections n = some opts) (h : iniLines st ls = .ok st') :
    ∃ b rest as d, ls = b ++ rest ∧ SectionLines b as ∧ DocLines rest d ∧ (d.map (·.1)).Nodup ∧
      (∀ m ∈ d.map (·.1), assocGet st.sections m = none) ∧
      ∀ m, assocGet st'.sections m = lookupAfter d (fun m => if m = n then some (foldSet opts as) else assocGet st.sections m) m := by
  induction ls generalizing st n opts with
  | nil =>
    injection h with h; subst h
    refine ⟨[], [], [], [], rfl, .nil, .nil, by simp, by simp, ?_⟩
    intro m
    simp only [lookupAfter, assocGet]
    by_cases hm : m = n
    · subst hm; rw [if_pos rfl, ho]; rfl
    · rw [if_neg hm]
  | cons l ls ih =>
    rw [iniLines, R.bind_eq_ok] at h
    obtain ⟨st1, h1, h2⟩ := h
    rcases line_cases l with hl | ⟨k, hl⟩ | ⟨k, v, hl⟩ | hl
    · rw [iniLine_ignored hl] at h1
      injection h1 with h1; subst h1
      obtain ⟨b, rest, as, d, rfl, h3, h4, h5, h6, h7⟩ := ih hs ho h2
      exact ⟨l :: b, rest, as, d, rfl, .ignored hl h3, h4, h5, h6, h7⟩
    · rw [iniLine_header hl] at h1
      split at h1
      · cases h1
      · rename_i hk
        injection h1 with h1; subst h1
        have hk' : assocGet st.sections k = none := by simpa using hk
        have hnk : n ≠ k := by rintro rfl; rw [ho] at hk'; cases hk'
        obtain ⟨b, rest, as, d, rfl, h3, h4, h5, h6, h7⟩ := ih (n := k) (opts := []) rfl (assocGet_set_self _ _ _) h2
        have hkd : k ∉ d.map (·.1) := by
          intro hm
          have := h6 k hm
          rw [assocGet_set_self] at this; cases this
        refine ⟨[], l :: (b ++ rest), [], (k, as) :: d, rfl, .nil, .sect hl h3 h4, ?_, ?_, ?_⟩
        · rw [List.map_cons, List.nodup_cons]; exact ⟨hkd, h5⟩
        · intro m hm
          rw [List.map_cons, List.mem_cons] at hm
          rcases hm with rfl | hm
          · exact hk'
          · have := h6 m hm
            rwa [assocGet_set_ne _ _ (fun (e : m = k) => hkd (e ▸ hm))] at this
        · intro m
          rw [h7]
          unfold lookupAfter
          simp only [assocGet]
          by_cases hm : k = m
          · subst hm
            rw [if_pos rfl, assocGet_none_iff.2 hkd]
            simp
          · rw [if_neg hm]
            cases assocGet d m with
            | some _ => rfl
            | none =>
              simp only
              rw [if_neg (fun e => hm e.symm), assocGet_set_ne _ _ (fun e => hm e.symm)]
              by_cases hmn : m = n
              · subst hmn; rw [if_pos rfl, ho]; rfl
              · rw [if_neg hmn]
    · rw [iniLine_assign hl, hs] at h1
      simp only [ho] at h1
      injection h1 with h1; subst h1
      obtain ⟨b, rest, as, d, rfl, h3, h4, h5, h6, h7⟩ :=
        ih (st := { sections := assocSet st.sections n (assocSet opts k v), inSection := some n }) (opts := assocSet opts k v) rfl (assocGet_set_self _ _ _) h2
      refine ⟨l :: b, rest, (k, v) :: as, d, rfl, .assign hl h3, h4, h5, ?_, ?_⟩
      · intro m hm
        have := h6 m hm
        by_cases hmn : m = n
        · subst hmn; rw [assocGet_set_self] at this; cases this
        · rwa [assocGet_set_ne _ _ hmn] at this
      · intro m
        rw [h7]
        unfold lookupAfter
        cases assocGet d m with
        | some _ => rfl
        | none =>
          simp only
          by_cases hmn : m = n
          · rw [if_pos hmn, if_pos hmn]; rfl
          · rw [if_neg hmn, if_neg hmn, assocGet_set_ne _ _ hmn]
    · rw [hl] at h1; cases h1

theorem iniLines_out {ls : List Str} {st' : IniState} (h : iniLines { sections := [], inSection := none } ls = .ok st') :
    ∃ d, DocLines ls d ∧ (d.map (·.1)).Nodup ∧ ∀ m, assocGet st'.sections m = (assocGet d m).map (foldSet []) := by
  induction ls with
  | nil =>
    injection h with h; subst h
    exact ⟨[], .nil, by simp, fun m => rfl⟩
  | cons l ls ih =>
    rw [iniLines, R.bind_eq_ok] at h
    obtain ⟨st1, h1, h2⟩ := h
    rcases line_cases l with hl | ⟨k, hl⟩ | ⟨k, v, hl⟩ | hl
    · rw [iniLine_ignored hl] at h1
      injection h1 with h1; subst h1
      obtain ⟨d, h3, h4, h5⟩ := ih h2
      exact ⟨d, .ignored hl h3, h4, h5⟩
    · rw [iniLine_header hl] at h1
      simp only [assocGet, Option.isSome_none, Bool.false_eq_true, if_false] at h1
      injection h1 with h1; subst h1
      obtain ⟨b, rest, as, d, rfl, h3, h4, h5, h6, h7⟩ := iniLines_in (n := k) (opts := []) rfl (assocGet_set_self _ _ _) h2
      have hkd : k ∉ d.map (·.1) := by
        intro hm
        have := h6 k hm
        rw [assocGet_set_self] at this; cases this
      refine ⟨(k, as) :: d, .sect hl h3 h4, ?_, ?_⟩
      · rw [List.map_cons, List.nodup_cons]; exact ⟨hkd, h5⟩
      · intro m
        rw [h7]
        unfold lookupAfter
        simp only [assocGet]
        by_cases hm : k = m
        · subst hm
          rw [if_pos rfl, assocGet_none_iff.2 hkd]
          simp
        · rw [if_neg hm]
          cases assocGet d m with
          | some _ => rfl
          | none =>
            simp only
            rw [if_neg (fun e => hm e.symm), assocGet_set_ne _ _ (fun e => hm e.symm)]
            rfl
    · rw [iniLine_assign hl] at h1
      cases h1
    · rw [hl] at h1; cases h1

theorem iniLines_section {b : List Str} {as : List (Str × Str)} (hb : SectionLines b as) (rest : List Str) (st : IniState) {n : Str}
    {opts : List (Str × Str)} (hs : st.inSection = some n) (ho : assocGet st.sections n = some opts) :
    ∃ st1 : IniState, st1.inSection = some n ∧ assocGet st1.sections n = some (foldSet opts as) ∧
      (∀ m, m ≠ n → assocGet st1.sections m = assocGet st.sections m) ∧ iniLines st (b ++ rest) = iniLines st1 rest := by
  induction hb generalizing st opts with
  | nil => exact ⟨st, hs, ho, fun _ _ => rfl, rfl⟩
  | ignored hl _ ih =>
    obtain ⟨st1, h1, h2, h3, h4⟩ := ih st hs ho
    refine ⟨st1, h1, h2, h3, ?_⟩
    rw [List.cons_append, iniLines, iniLine_ignored hl]
    exact h4
  | @assign l k v ls as hl _ ih =>
    obtain ⟨st1, h1, h2, h3, h4⟩ := ih { sections := assocSet st.sections n (assocSet opts k v), inSection := some n } (opts := assocSet opts k v) rfl
      (assocGet_set_self _ _ _)
    refine ⟨st1, h1, h2, ?_, ?_⟩
    · intro m hm; rw [h3 m hm]; exact assocGet_set_ne _ _ hm
    · rw [List.cons_append, iniLines, iniLine_assign hl, hs]
      simp only [ho]
      exact h4

theorem iniLines_doc {ls : List Str} {d : Doc} (hd : DocLines ls d) (st : IniState) (hn : (d.map (·.1)).Nodup)
    (hf : ∀ m ∈ d.map (·.1), assocGet st.sections m = none) :
    ∃ st', iniLines st ls = .ok st' ∧ ∀ m, assocGet st'.sections m = lookupAfter d (assocGet st.sections) m := by
  induction hd generalizing st with
  | nil => exact ⟨st, rfl, fun _ => rfl⟩
  | ignored hl _ ih =>
    obtain ⟨st', h1, h2⟩ := ih st hn hf
    exact ⟨st', by rw [iniLines, iniLine_ignored hl]; exact h1, h2⟩
  | @sect l n b ls as d hl hb _ ih =>
    rw [List.map_cons, List.nodup_cons] at hn
    have hn0 := hf n (by simp)
    obtain ⟨st1, h1, h2, h3, h4⟩ := iniLines_section hb ls { sections := assocSet st.sections n [], inSection := some n } (n := n) (opts := []) rfl
      (assocGet_set_self _ _ _)
    have h3' : ∀ m, m ≠ n → assocGet st1.sections m = assocGet st.sections m := by
      intro m hm; rw [h3 m hm]; exact assocGet_set_ne _ _ hm
    obtain ⟨st', h5, h6⟩ := ih st1 hn.2 (by
      intro m hm
      have hmn : m ≠ n := fun e => hn.1 (e ▸ hm)
      rw [h3' m hmn]
      exact hf m (by rw [List.map_cons]; exact List.mem_cons_of_mem _ hm))
    refine ⟨st', ?_, ?_⟩
    · rw [List.cons_append, iniLines, iniLine_header hl, hn0]
      simp only [Option.isSome_none, Bool.false_eq_true, if_false, R.bind_ok]
      rw [h4]; exact h5
    · intro m
      rw [h6]
      unfold lookupAfter
      simp only [assocGet]
      by_cases hm : n = m
      · subst hm
        rw [if_pos rfl, assocGet_none_iff.2 hn.1]
        simp only
        exact h2
      · rw [if_neg hm]
        cases assocGet d m with
        | some _ => rfl
        | none => simp only; exact h3' m (fun e => hm e.symm)

theorem iniLine_not_panic {st : IniState} (hs : ∀ n, st.inSection = some n → (assocGet st.sections n).isSome) (l : Str) :
    iniLine st l ≠ .panic ∧ ∀ st', iniLine st l = .ok st' → ∀ n, st'.inSection = some n → (assocGet st'.sections n).isSome := by
  rcases line_cases l with hl | ⟨k, hl⟩ | ⟨k, v, hl⟩ | hl
  · rw [iniLine_ignored hl]
    refine ⟨by simp, ?_⟩
    intro st' h; injection h with h; subst h; exact hs
  · rw [iniLine_header hl]
    split
    · exact ⟨by simp, by simp⟩
    · refine ⟨by simp, ?_⟩
      intro st' h; injection h with h; subst h
      intro n hn; injection hn with hn; subst hn
      rw [assocGet_set_self]; rfl
  · rw [iniLine_assign hl]
    cases hi : st.inSection with
    | none => exact ⟨by simp, by simp⟩
    | some n =>
      have := hs n hi
      cases ho : assocGet st.sections n with
      | none => rw [ho] at this; cases this
      | some opts =>
        simp only [ho]
        refine ⟨by simp, ?_⟩
        intro st' h; injection h with h; subst h
        intro m hm
        simp only [hi, Option.some.injEq] at hm
        subst hm
        rw [assocGet_set_self]; rfl
  · rw [hl]; exact ⟨by simp, by simp⟩

theorem iniLines_not_panic {ls : List Str} {st : IniState} (hs : ∀ n, st.inSection = some n → (assocGet st.sections n).isSome) :
    iniLines st ls ≠ .panic := by
  induction ls generalizing st with
  | nil => simp [iniLines]
  | cons l ls ih =>
    exact R.bind_not_panic (iniLine_not_panic hs l).1 fun st' h => ih ((iniLine_not_panic hs l).2 st' h)

/-! ### Documents -/

/-- The parsed document holds the last assignments. -/
structure Reads (ini : Ini) (d : Doc) : Prop where
  nodup : (d.map (·.1)).Nodup
  sections : ∀ m, assocGet ini.sections m = (assocGet d m).map (foldSet [])

theorem parseStr_sound {s : Str} {ini : Ini} (h : Ini.parseStr s = .ok ini) : ∃ d, IniText s d ∧ Reads ini d := by
  unfold Ini.parseStr at h
  rw [R.bind_eq_ok] at h
  obtain ⟨st, h1, h2⟩ := h
  injection h2 with h2; subst h2
  obtain ⟨d, h3, h4, h5⟩ := iniLines_out h1
  exact ⟨d, ⟨_, textLines_iff.2 rfl, h3, h4⟩, h4, h5⟩

theorem parseStr_complete {s : Str} {d : Doc} (h : IniText s d) : ∃ ini, Ini.parseStr s = .ok ini ∧ Reads ini d := by
  obtain ⟨ls, h1, h2, h3⟩ := h
  rw [textLines_iff] at h1; subst h1
  obtain ⟨st, h4, h5⟩ := iniLines_doc h2 { sections := [], inSection := none } h3 (by simp [assocGet])
  refine ⟨{ sections := st.sections }, ?_, h3, ?_⟩
  · unfold Ini.parseStr; rw [h4]; rfl
  · intro m; simp only; rw [h5, lookupAfter]
    cases assocGet d m <;> rfl

theorem parseStr_not_panic (s : Str) : Ini.parseStr s ≠ .panic :=
  R.bind_not_panic (iniLines_not_panic (by simp)) (by simp)

theorem Reads.setting {ini : Ini} {d : Doc} (h : Reads ini d) {n o v : Str} : ini.get n o = some v ↔ Setting d n o v := by
  unfold Ini.get Setting
  rw [h.sections]
  constructor
  · intro hv
    cases hd : assocGet d n with
    | none => rw [hd] at hv; cases hv
    | some as =>
      rw [hd] at hv
      exact ⟨as, assocGet_mem hd, lastValue_iff.2 hv⟩
  · rintro ⟨as, h1, h2⟩
    rw [assocGet_of_mem h.nodup h1]
    exact lastValue_iff.1 h2

theorem Reads.options {ini : Ini} {d : Doc} (h : Reads ini d) {n : Str} :
    (∃ opts, ini.optionsIter n = some opts ∧ (opts.map (·.1)).Nodup ∧ ∀ o v, (o, v) ∈ opts ↔ Setting d n o v) ∨
      (ini.optionsIter n = none ∧ ∀ o v, ¬ Setting d n o v) := by
  unfold Ini.optionsIter
  cases hd : assocGet d n with
  | none =>
    right
    refine ⟨by rw [h.sections, hd]; rfl, ?_⟩
    rintro o v ⟨as, h1, -⟩
    rw [assocGet_of_mem h.nodup h1] at hd; cases hd
  | some as =>
    left
    have hnd : ((foldSet [] as).map (·.1)).Nodup := foldSet_nodup (by simp) as
    refine ⟨foldSet [] as, by rw [h.sections, hd]; rfl, hnd, ?_⟩
    intro o v
    rw [← assocGet_eq_some_iff hnd, ← lastValue_iff]
    constructor
    · intro hl; exact ⟨as, assocGet_mem hd, hl⟩
    · rintro ⟨as', h1, h2⟩
      rw [assocGet_of_mem h.nodup h1] at hd
      injection hd with hd; subst hd; exact h2

theorem setting_unique {d : Doc} (hn : (d.map (·.1)).Nodup) {n o v v' : Str} (h : Setting d n o v) (h' : Setting d n o v') : v = v' := by
  obtain ⟨as, h1, h2⟩ := h
  obtain ⟨as', h1', h2'⟩ := h'
  have := assocGet_of_mem hn h1
  rw [assocGet_of_mem hn h1'] at this
  injection this with this; subst this
  rw [lastValue_iff] at h2 h2'
  rw [h2] at h2'; injection h2'

end Letmein
