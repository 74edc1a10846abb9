import Verif.Lemmas.Ini

/-!
# Lemmas: configurations
-/

namespace Letmein

open Spec

/-! ### Keys -/

theorem parseKeyEntry {value : Str} {k : Key} : KeyText value k ↔
    parseHex KEY_SIZE value = .ok k ∧ decide (k ≠ Arr.replicate KEY_SIZE 0) = true ∧ decide (k ≠ Arr.replicate KEY_SIZE 0xFF) = true := by
  rw [keyText_iff]; simp

theorem keysFrom_cons {ks ks' : List (UserId × Key)} {n v : Str} {es : List (Str × Str)} :
    keysFrom ks ((n, v) :: es) = .ok ks' ↔
      ∃ x k, IdText n x ∧ KeyText v k ∧ assocGet ks ⟨x⟩ = none ∧ keysFrom (assocSet ks ⟨x⟩ k) es = .ok ks' := by
  rw [keysFrom]
  simp only [R.bind_eq_ok, rensure_eq_ok]
  constructor
  · rintro ⟨x, h1, k, h2, -, h3, -, h4, -, h5, h6⟩
    exact ⟨x, k, parseId_iff.1 h1, parseKeyEntry.2 ⟨h2, h3, h4⟩, by simpa using h5, h6⟩
  · rintro ⟨x, k, h1, h2, h3, h4⟩
    obtain ⟨h5, h6, h7⟩ := parseKeyEntry.1 h2
    exact ⟨x, parseId_iff.2 h1, k, h5, (), h6, (), h7, (), by simpa using h3, h4⟩

theorem keysFrom_sound {ks ks' : List (UserId × Key)} {es : List (Str × Str)} (h : keysFrom ks es = .ok ks') :
    (∀ e ∈ es, ∃ x k, IdText e.1 x ∧ KeyText e.2 k) ∧
    (∀ e ∈ es, ∀ x, IdText e.1 x → assocGet ks ⟨x⟩ = none) ∧
    (∀ e ∈ es, ∀ e' ∈ es, ∀ x, IdText e.1 x → IdText e'.1 x → e = e') ∧
    (∀ u k, assocGet ks' u = some k ↔ assocGet ks u = some k ∨ ∃ e ∈ es, IdText e.1 u.raw ∧ KeyText e.2 k) ∧
    ((ks.map (·.1)).Nodup → (ks'.map (·.1)).Nodup) := by
  induction es generalizing ks with
  | nil => injection h with h; subst h; simp
  | cons e es ih =>
    obtain ⟨n, v⟩ := e
    rw [keysFrom_cons] at h
    obtain ⟨x, k, h1, h2, h3, h4⟩ := h
    obtain ⟨i1, i2, i3, i4, i5⟩ := ih h4
    have hx : ∀ e ∈ es, ¬ IdText e.1 x := by
      intro e he hh
      have := i2 e he x hh
      rw [assocGet_set_self] at this; cases this
    refine ⟨?_, ?_, ?_, ?_, fun hn => i5 (assocSet_nodup hn _ _)⟩
    · intro e he
      rcases List.mem_cons.1 he with rfl | he
      · exact ⟨x, k, h1, h2⟩
      · exact i1 e he
    · intro e he y hy
      rcases List.mem_cons.1 he with rfl | he
      · rw [← idText_unique h1 hy]; exact h3
      · have := i2 e he y hy
        have hne : (⟨y⟩ : UserId) ≠ ⟨x⟩ := by
          intro e'; injection e' with e'; subst e'; exact hx e he hy
        rwa [assocGet_set_ne _ _ hne] at this
    · intro e he e' he' y hy hy'
      rcases List.mem_cons.1 he with rfl | he
      · have e1 := idText_unique h1 hy
        subst e1
        rcases List.mem_cons.1 he' with rfl | he'
        · rfl
        · exact absurd hy' (hx e' he')
      · rcases List.mem_cons.1 he' with rfl | he'
        · have e1 := idText_unique h1 hy'
          subst e1
          exact absurd hy (hx e he)
        · exact i3 e he e' he' y hy hy'
    · intro u k'
      rw [i4]
      by_cases hu : u = ⟨x⟩
      · subst hu
        rw [assocGet_set_self, h3]
        constructor
        · rintro (h | ⟨e, he, h5, -⟩)
          · injection h with h; subst h
            exact .inr ⟨(n, v), by simp, h1, h2⟩
          · exact absurd h5 (hx e he)
        · rintro (h | ⟨e, he, h5, h6⟩)
          · cases h
          · rcases List.mem_cons.1 he with rfl | he
            · left; rw [keyText_unique h2 h6]
            · exact absurd h5 (hx e he)
      · rw [assocGet_set_ne _ _ hu]
        constructor
        · rintro (h | ⟨e, he, h5⟩)
          · exact .inl h
          · exact .inr ⟨e, by simp [he], h5⟩
        · rintro (h | ⟨e, he, h5, h6⟩)
          · exact .inl h
          · rcases List.mem_cons.1 he with rfl | he
            · exfalso; apply hu
              have := idText_unique h1 h5
              rw [this]
            · exact .inr ⟨e, he, h5, h6⟩

theorem keysFrom_complete {ks : List (UserId × Key)} {es : List (Str × Str)} (hn : es.Nodup)
    (h1 : ∀ e ∈ es, ∃ x k, IdText e.1 x ∧ KeyText e.2 k)
    (h2 : ∀ e ∈ es, ∀ x, IdText e.1 x → assocGet ks ⟨x⟩ = none)
    (h3 : ∀ e ∈ es, ∀ e' ∈ es, ∀ x, IdText e.1 x → IdText e'.1 x → e = e') : ∃ ks', keysFrom ks es = .ok ks' := by
  induction es generalizing ks with
  | nil => exact ⟨ks, rfl⟩
  | cons e es ih =>
    obtain ⟨n, v⟩ := e
    rw [List.nodup_cons] at hn
    obtain ⟨x, k, hx, hk⟩ := h1 (n, v) (by simp)
    obtain ⟨ks', h⟩ := ih (ks := assocSet ks ⟨x⟩ k) hn.2 (fun e he => h1 e (by simp [he])) (by
        intro e he y hy
        have hne : (⟨y⟩ : UserId) ≠ ⟨x⟩ := by
          intro e'; injection e' with e'; subst e'
          have := h3 (n, v) (by simp) e (by simp [he]) y hx hy
          exact hn.1 (this ▸ he)
        rw [assocGet_set_ne _ _ hne]
        exact h2 e (by simp [he]) y hy)
      (fun e he e' he' => h3 e (by simp [he]) e' (by simp [he']))
    exact ⟨ks', keysFrom_cons.2 ⟨x, k, hx, hk, h2 (n, v) (by simp) x hx, h⟩⟩

theorem keysFrom_not_panic (ks : List (UserId × Key)) (es : List (Str × Str)) : keysFrom ks es ≠ .panic := by
  induction es generalizing ks with
  | nil => simp [keysFrom]
  | cons e es ih =>
    obtain ⟨n, v⟩ := e
    rw [keysFrom]
    exact R.bind_not_panic (parseId_not_panic n) fun _ _ => R.bind_not_panic (parseHex_not_panic _ v) fun _ _ =>
      R.bind_not_panic (rensure_not_panic _) fun _ _ => R.bind_not_panic (rensure_not_panic _) fun _ _ =>
      R.bind_not_panic (rensure_not_panic _) fun _ _ => ih _

/-! ### Resources -/

theorem resourceText_unique {s : Str} {r r' : Resource} (h : ResourceText s r) (h' : ResourceText s r') : r = r' := by
  rw [← parseResource_iff] at h h'
  rw [h] at h'; injection h'

theorem resourcesFrom_cons {rs rs' : List (ResourceId × Resource)} {n v : Str} {es : List (Str × Str)} :
    resourcesFrom rs ((n, v) :: es) = .ok rs' ↔
      ∃ x r, IdText n x ∧ ResourceText v r ∧ (∀ e ∈ rs, e.1 ≠ ⟨x⟩ ∧ e.2.port ≠ r.port) ∧ resourcesFrom (assocSet rs ⟨x⟩ r) es = .ok rs' := by
  rw [resourcesFrom]
  simp only [R.bind_eq_ok, rensure_eq_ok]
  constructor
  · rintro ⟨x, h1, k, h2, -, h3, h6⟩
    exact ⟨x, k, parseId_iff.1 h1, parseResource_iff.1 h2, by simpa using h3, h6⟩
  · rintro ⟨x, k, h1, h2, h3, h4⟩
    exact ⟨x, parseId_iff.2 h1, k, parseResource_iff.2 h2, (), by simpa using h3, h4⟩

theorem resourcesFrom_sound {rs rs' : List (ResourceId × Resource)} {es : List (Str × Str)} (h : resourcesFrom rs es = .ok rs') :
    (∀ e ∈ es, ∃ x r, IdText e.1 x ∧ ResourceText e.2 r) ∧
    (∀ e ∈ es, ∀ x r, IdText e.1 x → ResourceText e.2 r → ∀ f ∈ rs, f.1 ≠ ⟨x⟩ ∧ f.2.port ≠ r.port) ∧
    (∀ e ∈ es, ∀ e' ∈ es, ∀ x, IdText e.1 x → IdText e'.1 x → e = e') ∧
    (∀ e ∈ es, ∀ e' ∈ es, ∀ r r', ResourceText e.2 r → ResourceText e'.2 r' → r.port = r'.port → e = e') ∧
    (∀ u k, assocGet rs' u = some k ↔ assocGet rs u = some k ∨ ∃ e ∈ es, IdText e.1 u.raw ∧ ResourceText e.2 k) ∧
    ((rs.map (·.1)).Nodup → (rs'.map (·.1)).Nodup) := by
  induction es generalizing rs with
  | nil => injection h with h; subst h; simp
  | cons e es ih =>
    obtain ⟨n, v⟩ := e
    rw [resourcesFrom_cons] at h
    obtain ⟨x, k, h1, h2, h3, h4⟩ := h
    obtain ⟨i1, i2, i3, i3', i4, i5⟩ := ih h4
    have hnew : ((⟨x⟩, k) : ResourceId × Resource) ∈ assocSet rs ⟨x⟩ k := by simp [assocSet]
    have hx : ∀ e ∈ es, ¬ IdText e.1 x := by
      intro e he hh
      obtain ⟨y, r, hy, hr⟩ := i1 e he
      have := (i2 e he y r hy hr _ hnew).1
      exact this (by rw [idText_unique hy hh])
    have hp : ∀ e ∈ es, ∀ r, ResourceText e.2 r → k.port ≠ r.port := by
      intro e he r hr
      obtain ⟨y, r', hy, hr'⟩ := i1 e he
      exact (i2 e he y r hy hr _ hnew).2
    have hnone : assocGet rs ⟨x⟩ = none := by
      rw [assocGet_none_iff, List.mem_map]
      rintro ⟨f, hf, he⟩
      exact (h3 f hf).1 he
    refine ⟨?_, ?_, ?_, ?_, ?_, fun hn => i5 (assocSet_nodup hn _ _)⟩
    · intro e he
      rcases List.mem_cons.1 he with rfl | he
      · exact ⟨x, k, h1, h2⟩
      · exact i1 e he
    · intro e he y r hy hr f hf
      rcases List.mem_cons.1 he with rfl | he
      · rw [← idText_unique h1 hy, ← resourceText_unique h2 hr]; exact h3 f hf
      · refine i2 e he y r hy hr f ?_
        rw [assocSet, assocErase_of_none hnone]
        simp [hf]
    · intro e he e' he' y hy hy'
      rcases List.mem_cons.1 he with rfl | he
      · have e1 := idText_unique h1 hy
        subst e1
        rcases List.mem_cons.1 he' with rfl | he'
        · rfl
        · exact absurd hy' (hx e' he')
      · rcases List.mem_cons.1 he' with rfl | he'
        · have e1 := idText_unique h1 hy'
          subst e1
          exact absurd hy (hx e he)
        · exact i3 e he e' he' y hy hy'
    · intro e he e' he' r r' hr hr' hpp
      rcases List.mem_cons.1 he with rfl | he
      · rcases List.mem_cons.1 he' with rfl | he'
        · rfl
        · rw [← resourceText_unique h2 hr] at hpp
          exact absurd hpp (hp e' he' r' hr')
      · rcases List.mem_cons.1 he' with rfl | he'
        · rw [← resourceText_unique h2 hr'] at hpp
          exact absurd hpp.symm (hp e he r hr)
        · exact i3' e he e' he' r r' hr hr' hpp
    · intro u k'
      rw [i4]
      by_cases hu : u = ⟨x⟩
      · subst hu
        rw [assocGet_set_self, hnone]
        constructor
        · rintro (h | ⟨e, he, h5, -⟩)
          · injection h with h; subst h
            exact .inr ⟨(n, v), by simp, h1, h2⟩
          · exact absurd h5 (hx e he)
        · rintro (h | ⟨e, he, h5, h6⟩)
          · cases h
          · rcases List.mem_cons.1 he with rfl | he
            · left; rw [resourceText_unique h2 h6]
            · exact absurd h5 (hx e he)
      · rw [assocGet_set_ne _ _ hu]
        constructor
        · rintro (h | ⟨e, he, h5⟩)
          · exact .inl h
          · exact .inr ⟨e, by simp [he], h5⟩
        · rintro (h | ⟨e, he, h5, h6⟩)
          · exact .inl h
          · rcases List.mem_cons.1 he with rfl | he
            · exfalso; apply hu
              have := idText_unique h1 h5
              rw [this]
            · exact .inr ⟨e, he, h5, h6⟩

theorem resourcesFrom_complete {rs : List (ResourceId × Resource)} {es : List (Str × Str)} (hn : es.Nodup)
    (h1 : ∀ e ∈ es, ∃ x r, IdText e.1 x ∧ ResourceText e.2 r)
    (h2 : ∀ e ∈ es, ∀ x r, IdText e.1 x → ResourceText e.2 r → ∀ f ∈ rs, f.1 ≠ ⟨x⟩ ∧ f.2.port ≠ r.port)
    (h3 : ∀ e ∈ es, ∀ e' ∈ es, ∀ x, IdText e.1 x → IdText e'.1 x → e = e')
    (h4 : ∀ e ∈ es, ∀ e' ∈ es, ∀ r r', ResourceText e.2 r → ResourceText e'.2 r' → r.port = r'.port → e = e') :
    ∃ rs', resourcesFrom rs es = .ok rs' := by
  induction es generalizing rs with
  | nil => exact ⟨rs, rfl⟩
  | cons e es ih =>
    obtain ⟨n, v⟩ := e
    rw [List.nodup_cons] at hn
    obtain ⟨x, k, hx, hk⟩ := h1 (n, v) (by simp)
    obtain ⟨rs', h⟩ := ih (rs := assocSet rs ⟨x⟩ k) hn.2 (fun e he => h1 e (by simp [he])) (by
        intro e he y r hy hr f hf
        rw [assocSet] at hf
        rcases List.mem_cons.1 hf with rfl | hf
        · refine ⟨?_, ?_⟩
          · intro e'; injection e' with e'; subst e'
            exact hn.1 (h3 (n, v) (by simp) e (by simp [he]) _ hx hy ▸ he)
          · intro e'
            exact hn.1 (h4 (n, v) (by simp) e (by simp [he]) _ _ hk hr e' ▸ he)
        · exact h2 e (by simp [he]) y r hy hr f (mem_assocErase hf).1)
      (fun e he e' he' => h3 e (by simp [he]) e' (by simp [he'])) (fun e he e' he' => h4 e (by simp [he]) e' (by simp [he']))
    exact ⟨rs', resourcesFrom_cons.2 ⟨x, k, hx, hk, h2 (n, v) (by simp) x k hx hk, h⟩⟩

theorem resourcesFrom_not_panic (rs : List (ResourceId × Resource)) (es : List (Str × Str)) : resourcesFrom rs es ≠ .panic := by
  induction es generalizing rs with
  | nil => simp [resourcesFrom]
  | cons e es ih =>
    obtain ⟨n, v⟩ := e
    rw [resourcesFrom]
    exact R.bind_not_panic (parseId_not_panic n) fun _ _ => R.bind_not_panic (parseResource_not_panic v) fun _ _ =>
      R.bind_not_panic (rensure_not_panic _) fun _ _ => ih _

/-! ### Sections in any order -/

/-- The entries of a section, in the order of the iteration. -/
theorem section_entries {ini : Ini} {d : Doc} (h : Reads ini d) {order : IterOrder} (ho : ∀ l, (order l).Perm l) (n : Str) :
    ∃ es : List (Str × Str), (∀ {β : Type} (f : Option (List (Str × Str)) → β) (g : List (Str × Str) → β),
      (∀ l, f (some l) = g l) → f none = g [] → f ((ini.optionsIter n).map order) = g es) ∧
      es.Nodup ∧ (∀ o v, (o, v) ∈ es ↔ Setting d n o v) ∧ ∀ o v v', (o, v) ∈ es → (o, v') ∈ es → v = v' := by
  rcases h.options (n := n) with ⟨opts, h1, h2, h3⟩ | ⟨h1, h2⟩
  · refine ⟨order opts, ?_, ?_, ?_, ?_⟩
    · intro β f g hs _; rw [h1]; exact hs _
    · rw [(ho opts).nodup_iff]; exact (List.pairwise_map.1 h2).imp (fun hne e => hne (by rw [e]))
    · intro o v; rw [(ho opts).mem_iff]; exact h3 o v
    · intro o v v' hv hv'
      rw [(ho opts).mem_iff] at hv hv'
      have e1 := assocGet_of_mem h2 hv
      rw [assocGet_of_mem h2 hv'] at e1
      injection e1 with e1; exact e1.symm
  · refine ⟨[], ?_, by simp, ?_, by simp⟩
    · intro β f g _ hn; rw [h1]; exact hn
    · intro o v; simp [h2]

theorem getKeys_eq {ini : Ini} {d : Doc} (h : Reads ini d) {order : IterOrder} (ho : ∀ l, (order l).Perm l) :
    (∀ ks, getKeys ((ini.optionsIter "KEYS".toList).map order) = .ok ks → KeysOf d (assocGet ks) ∧ (ks.map (·.1)).Nodup) ∧
    (∀ f, KeysOf d f → ∃ ks, getKeys ((ini.optionsIter "KEYS".toList).map order) = .ok ks) := by
  obtain ⟨es, h1, h2, h3, h4⟩ := section_entries h ho "KEYS".toList
  rw [h1 getKeys (keysFrom []) (fun l => rfl) rfl]
  constructor
  · intro ks hks
    obtain ⟨i1, -, i3, i4, i5⟩ := keysFrom_sound hks
    refine ⟨⟨?_, ?_, ?_⟩, i5 (by simp)⟩
    · intro n v hs; exact i1 (n, v) ((h3 n v).2 hs)
    · intro n v n' v' x hs hs' hx hx'
      have := i3 (n, v) ((h3 n v).2 hs) (n', v') ((h3 n' v').2 hs') x hx hx'
      injection this
    · intro u k
      rw [i4]
      simp only [assocGet, reduceCtorEq, false_or]
      constructor
      · rintro ⟨⟨n, v⟩, he, h5⟩; exact ⟨n, v, (h3 n v).1 he, h5⟩
      · rintro ⟨n, v, he, h5⟩; exact ⟨(n, v), (h3 n v).2 he, h5⟩
  · intro f hf
    refine keysFrom_complete h2 ?_ (by simp [assocGet]) ?_
    · rintro ⟨n, v⟩ he; exact hf.valid n v ((h3 n v).1 he)
    · rintro ⟨n, v⟩ he ⟨n', v'⟩ he' x hx hx'
      have := hf.distinct n v n' v' x ((h3 n v).1 he) ((h3 n' v').1 he') hx hx'
      subst this
      rw [h4 _ _ _ he he']

theorem getResources_eq {ini : Ini} {d : Doc} (h : Reads ini d) {order : IterOrder} (ho : ∀ l, (order l).Perm l) :
    (∀ rs, getResources ((ini.optionsIter "RESOURCES".toList).map order) = .ok rs → ResourcesOf d (assocGet rs) ∧ (rs.map (·.1)).Nodup) ∧
    (∀ f, ResourcesOf d f → ∃ rs, getResources ((ini.optionsIter "RESOURCES".toList).map order) = .ok rs) := by
  obtain ⟨es, h1, h2, h3, h4⟩ := section_entries h ho "RESOURCES".toList
  rw [h1 getResources (resourcesFrom []) (fun l => rfl) rfl]
  constructor
  · intro ks hks
    obtain ⟨i1, -, i3, i3', i4, i5⟩ := resourcesFrom_sound hks
    refine ⟨⟨?_, ?_, ?_, ?_⟩, i5 (by simp)⟩
    · intro n v hs; exact i1 (n, v) ((h3 n v).2 hs)
    · intro n v n' v' x hs hs' hx hx'
      have := i3 (n, v) ((h3 n v).2 hs) (n', v') ((h3 n' v').2 hs') x hx hx'
      injection this
    · intro n v n' v' r r' hs hs' hx hx' hp
      have := i3' (n, v) ((h3 n v).2 hs) (n', v') ((h3 n' v').2 hs') r r' hx hx' hp
      injection this
    · intro u k
      rw [i4]
      simp only [assocGet, reduceCtorEq, false_or]
      constructor
      · rintro ⟨⟨n, v⟩, he, h5⟩; exact ⟨n, v, (h3 n v).1 he, h5⟩
      · rintro ⟨n, v, he, h5⟩; exact ⟨(n, v), (h3 n v).2 he, h5⟩
  · intro f hf
    refine resourcesFrom_complete h2 ?_ (by simp) ?_ ?_
    · rintro ⟨n, v⟩ he; exact hf.valid n v ((h3 n v).1 he)
    · rintro ⟨n, v⟩ he ⟨n', v'⟩ he' x hx hx'
      have := hf.distinct n v n' v' x ((h3 n v).1 he) ((h3 n' v').1 he') hx hx'
      subst this
      rw [h4 _ _ _ he he']
    · rintro ⟨n, v⟩ he ⟨n', v'⟩ he' r r' hx hx' hp
      have := hf.ports n v n' v' r r' ((h3 n v).1 he) ((h3 n' v').1 he') hx hx' hp
      subst this
      rw [h4 _ _ _ he he']

/-! ### Single options -/

theorem getOpt_iff {α : Type} {ini : Ini} {d : Doc} (h : Reads ini d) {sect opt : String} {parse : Str → R α} {P : Str → α → Prop}
    (hp : ∀ s x, parse s = .ok x ↔ P s x) {dflt x : α} : getOpt ini sect opt parse dflt = .ok x ↔ Given d sect opt P dflt x := by
  unfold getOpt Given
  cases hg : ini.get sect.toList opt.toList with
  | none =>
    have hno : ¬ ∃ v, Setting d sect.toList opt.toList v := by
      rintro ⟨v, hv⟩; rw [← h.setting, hg] at hv; cases hv
    have hno' : ¬ ∃ v, Setting d sect.toList opt.toList v ∧ P v x := by
      rintro ⟨v, hv, -⟩; exact hno ⟨v, hv⟩
    simp only [R.ok.injEq, hno, hno', false_or, not_false_eq_true, true_and]
    exact eq_comm
  | some v =>
    have hv := h.setting.1 hg
    simp only
    rw [hp]
    constructor
    · intro hx; exact .inl ⟨v, hv, hx⟩
    · rintro (⟨v', hv', hx⟩ | ⟨hno, -⟩)
      · rw [← h.setting, hg] at hv'; injection hv' with hv'; subst hv'; exact hx
      · exact absurd ⟨v, hv⟩ hno

theorem getOpt_not_panic {α : Type} {ini : Ini} {sect opt : String} {parse : Str → R α} (hp : ∀ s, parse s ≠ .panic) {dflt : α} :
    getOpt ini sect opt parse dflt ≠ .panic := by
  unfold getOpt
  split
  · exact hp _
  · simp

theorem trimText_iff (s x : Str) : (R.ok (trim s) : R Str) = .ok x ↔ Trimmed s x := by
  rw [trimmed_iff]; simp

theorem familyText_iff (s x : Str) : (if trim s = "inet".toList ∨ trim s = "ip".toList ∨ trim s = "ip6".toList then R.ok (trim s) else .err) = .ok x ↔
    FamilyText s x := by
  unfold FamilyText
  rw [trimmed_iff]
  by_cases h : trim s = "inet".toList ∨ trim s = "ip".toList ∨ trim s = "ip6".toList
  · rw [if_pos h]
    simp only [R.ok.injEq]
    constructor
    · rintro rfl; exact ⟨rfl, h⟩
    · exact fun h' => h'.1
  · rw [if_neg h]
    simp only [reduceCtorEq, false_iff]
    rintro ⟨rfl, h'⟩
    exact h h'

theorem userText_iff (s : Str) (x : UserId) : (do let id ← parseId s; .ok ⟨id⟩ : R UserId) = .ok x ↔ IdText s x.raw := by
  rw [R.bind_eq_ok, ← parseId_iff]
  constructor
  · rintro ⟨y, h1, h2⟩; injection h2 with h2; subst h2; exact h1
  · intro h; exact ⟨x.raw, h, rfl⟩

/-! ### The whole configuration -/

theorem values_sound {f64 : F64Secs} {order : IterOrder} (ho : ∀ l, (order l).Perm l) {ini : Ini} {d : Doc} (h : Reads ini d) {c c' : Config}
    (hc : c.values f64 order ini = .ok c') : ConfOf f64 d c' ∧ c'.variant = c.variant ∧ c'.path = c.path := by
  simp only [Config.values, R.bind_eq_ok] at hc
  obtain ⟨debug, h1, port, h2, ct, h3, ep, h4, sc, h5, keys, h6, ress, h7, du, h8, ne, h9, nf, h10, nt, h11, nc, h12, nto, h13, h14⟩ := hc
  injection h14 with h14
  subst h14
  obtain ⟨k1, k2⟩ := (getKeys_eq h ho).1 _ h6
  obtain ⟨r1, r2⟩ := (getResources_eq h ho).1 _ h7
  refine ⟨⟨?_, ?_, ?_, ?_, ?_, k1, k2, r1, r2, ?_, ?_, ?_, ?_, ?_, ?_⟩, rfl, rfl⟩
  · exact (getOpt_iff h (fun _ _ => parseBool_iff)).1 h1
  · exact (getOpt_iff h (fun _ _ => parsePort_iff)).1 h2
  · exact (getOpt_iff h (fun _ _ => parseDuration_iff)).1 h3
  · exact (getOpt_iff h (fun _ _ => errorPolicy_iff)).1 h4
  · exact (getOpt_iff h (fun _ _ => seccomp_iff)).1 h5
  · simp only
    unfold onlyFor at h8
    split <;> rename_i hv
    · rw [if_pos hv] at h8; exact (getOpt_iff h userText_iff).1 h8
    · rw [if_neg hv] at h8; injection h8 with h8; exact h8.symm
  · simp only
    unfold onlyFor at h9
    split <;> rename_i hv
    · rw [if_pos hv] at h9; exact (getOpt_iff h trimText_iff).1 h9
    · rw [if_neg hv] at h9; injection h9 with h9; exact h9.symm
  · simp only
    unfold onlyFor at h10
    split <;> rename_i hv
    · rw [if_pos hv] at h10; exact (getOpt_iff h familyText_iff).1 h10
    · rw [if_neg hv] at h10; injection h10 with h10; exact h10.symm
  · simp only
    unfold onlyFor at h11
    split <;> rename_i hv
    · rw [if_pos hv] at h11; exact (getOpt_iff h trimText_iff).1 h11
    · rw [if_neg hv] at h11; injection h11 with h11; exact h11.symm
  · simp only
    unfold onlyFor at h12
    split <;> rename_i hv
    · rw [if_pos hv] at h12; exact (getOpt_iff h trimText_iff).1 h12
    · rw [if_neg hv] at h12; injection h12 with h12; exact h12.symm
  · simp only
    unfold onlyFor at h13
    split <;> rename_i hv
    · rw [if_pos hv] at h13; exact (getOpt_iff h (fun _ _ => parseDuration_iff)).1 h13
    · rw [if_neg hv] at h13; injection h13 with h13; exact h13.symm

theorem values_complete {f64 : F64Secs} {order : IterOrder} (ho : ∀ l, (order l).Perm l) {ini : Ini} {d : Doc} (h : Reads ini d) {c c' : Config}
    (hc : ConfOf f64 d c') (hv : c'.variant = c.variant) : ∃ c'', c.values f64 order ini = .ok c'' := by
  obtain ⟨ks, hk⟩ := (getKeys_eq h ho).2 _ hc.keys
  obtain ⟨rs, hr⟩ := (getResources_eq h ho).2 _ hc.resources
  have h8 := hc.defaultUser
  have h9 := hc.nftExe
  have h10 := hc.nftFamily
  have h11 := hc.nftTable
  have h12 := hc.nftChainInput
  have h13 := hc.nftTimeout
  rw [hv] at h8 h9 h10 h11 h12 h13
  simp only [Config.values, R.bind_eq_ok]
  refine ⟨_, c'.debug, (getOpt_iff h (fun _ _ => parseBool_iff)).2 hc.debug, c'.port, (getOpt_iff h (fun _ _ => parsePort_iff)).2 hc.port,
    c'.controlTimeout, (getOpt_iff h (fun _ _ => parseDuration_iff)).2 hc.controlTimeout, c'.controlErrorPolicy,
    (getOpt_iff h (fun _ _ => errorPolicy_iff)).2 hc.controlErrorPolicy, c'.seccomp, (getOpt_iff h (fun _ _ => seccomp_iff)).2 hc.seccomp,
    ks, hk, rs, hr, c'.defaultUser, ?_, c'.nftExe, ?_, c'.nftFamily, ?_, c'.nftTable, ?_, c'.nftChainInput, ?_, c'.nftTimeout, ?_, rfl⟩
  · unfold onlyFor
    split at h8 <;> rename_i hv
    · rw [if_pos hv]; exact (getOpt_iff h userText_iff).2 h8
    · rw [if_neg hv]; rw [h8]
  · unfold onlyFor
    split at h9 <;> rename_i hv
    · rw [if_pos hv]; exact (getOpt_iff h trimText_iff).2 h9
    · rw [if_neg hv]; rw [h9]
  · unfold onlyFor
    split at h10 <;> rename_i hv
    · rw [if_pos hv]; exact (getOpt_iff h familyText_iff).2 h10
    · rw [if_neg hv]; rw [h10]
  · unfold onlyFor
    split at h11 <;> rename_i hv
    · rw [if_pos hv]; exact (getOpt_iff h trimText_iff).2 h11
    · rw [if_neg hv]; rw [h11]
  · unfold onlyFor
    split at h12 <;> rename_i hv
    · rw [if_pos hv]; exact (getOpt_iff h trimText_iff).2 h12
    · rw [if_neg hv]; rw [h12]
  · unfold onlyFor
    split at h13 <;> rename_i hv
    · rw [if_pos hv]; exact (getOpt_iff h (fun _ _ => parseDuration_iff)).2 h13
    · rw [if_neg hv]; rw [h13]; rfl

theorem values_not_panic (f64 : F64Secs) (order : IterOrder) (c : Config) (ini : Ini) : c.values f64 order ini ≠ .panic := by
  unfold Config.values
  refine R.bind_not_panic (getOpt_not_panic parseBool_not_panic) fun _ _ => R.bind_not_panic (getOpt_not_panic parsePort_not_panic) fun _ _ =>
    R.bind_not_panic (getOpt_not_panic (parseDuration_not_panic f64)) fun _ _ => R.bind_not_panic (getOpt_not_panic errorPolicy_not_panic) fun _ _ =>
    R.bind_not_panic (getOpt_not_panic seccomp_not_panic) fun _ _ => R.bind_not_panic ?_ fun _ _ => R.bind_not_panic ?_ fun _ _ =>
    R.bind_not_panic ?_ fun _ _ => R.bind_not_panic ?_ fun _ _ => R.bind_not_panic ?_ fun _ _ => R.bind_not_panic ?_ fun _ _ =>
    R.bind_not_panic ?_ fun _ _ => R.bind_not_panic ?_ fun _ _ => by simp
  · unfold getKeys; split
    · exact keysFrom_not_panic _ _
    · simp
  · unfold getResources; split
    · exact resourcesFrom_not_panic _ _
    · simp
  · unfold onlyFor; split
    · exact getOpt_not_panic fun s => R.bind_not_panic (parseId_not_panic s) (by simp)
    · simp
  · unfold onlyFor; split
    · exact getOpt_not_panic (by simp)
    · simp
  · unfold onlyFor; split
    · refine getOpt_not_panic fun s => ?_
      split <;> simp
    · simp
  · unfold onlyFor; split
    · exact getOpt_not_panic (by simp)
    · simp
  · unfold onlyFor; split
    · exact getOpt_not_panic (by simp)
    · simp
  · unfold onlyFor; split
    · exact getOpt_not_panic (parseDuration_not_panic f64)
    · simp

end Letmein
