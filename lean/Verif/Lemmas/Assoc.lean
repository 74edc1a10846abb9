import Verif.Model.Udp

/-!
# Association lists standing for hash maps
-/

namespace Letmein

variable {κ ν : Type} [DecidableEq κ]

theorem assocGet_mem {l : List (κ × ν)} {k : κ} {v : ν} (h : assocGet l k = some v) : (k, v) ∈ l := by
  induction l with
  | nil => cases h
  | cons e l ih =>
    obtain ⟨k', v'⟩ := e
    rw [assocGet] at h
    by_cases hk : k' = k
    · rw [if_pos hk] at h
      cases h
      exact hk ▸ List.mem_cons_self
    · rw [if_neg hk] at h
      exact List.mem_cons_of_mem _ (ih h)

theorem assocGet_none_iff {l : List (κ × ν)} {k : κ} : assocGet l k = none ↔ k ∉ l.map (·.1) := by
  induction l with
  | nil => simp [assocGet]
  | cons e l ih =>
    obtain ⟨k', v'⟩ := e
    rw [assocGet]
    by_cases hk : k' = k
    · simp [hk]
    · rw [if_neg hk, ih]
      simp only [List.map_cons, List.mem_cons, not_or]
      exact ⟨fun h => ⟨fun e => hk e.symm, h⟩, fun h => h.2⟩

theorem assocGet_of_mem {l : List (κ × ν)} (hn : (l.map (·.1)).Nodup) {k : κ} {v : ν} (h : (k, v) ∈ l) :
    assocGet l k = some v := by
  induction l with
  | nil => cases h
  | cons e l ih =>
    obtain ⟨k', v'⟩ := e
    rw [List.map_cons, List.nodup_cons] at hn
    rw [assocGet]
    rcases List.mem_cons.1 h with h | h
    · cases h; exact if_pos rfl
    · have : k' ≠ k := fun e => hn.1 (e ▸ List.mem_map.2 ⟨_, h, rfl⟩)
      rw [if_neg this]
      exact ih hn.2 h

theorem assocGet_eq_some_iff {l : List (κ × ν)} (hn : (l.map (·.1)).Nodup) {k : κ} {v : ν} :
    assocGet l k = some v ↔ (k, v) ∈ l := ⟨assocGet_mem, assocGet_of_mem hn⟩

theorem assocGet_perm {l l' : List (κ × ν)} (hn : (l.map (·.1)).Nodup) (p : l'.Perm l) (k : κ) : assocGet l' k = assocGet l k := by
  have hn' : (l'.map (·.1)).Nodup := (p.map (·.1)).nodup_iff.2 hn
  apply Option.ext
  intro v
  rw [assocGet_eq_some_iff hn, assocGet_eq_some_iff hn']
  exact p.mem_iff

theorem assocErase_keys (l : List (κ × ν)) (k : κ) : (assocErase l k).map (·.1) = (l.map (·.1)).filter (fun x => x ≠ k) := by
  unfold assocErase
  rw [List.filter_map]
  rfl

theorem assocErase_nodup {l : List (κ × ν)} (hn : (l.map (·.1)).Nodup) (k : κ) : ((assocErase l k).map (·.1)).Nodup := by
  rw [assocErase_keys]
  exact hn.filter _

theorem assocGet_erase_self (l : List (κ × ν)) (k : κ) : assocGet (assocErase l k) k = none := by
  rw [assocGet_none_iff, assocErase_keys]
  simp

theorem assocGet_erase_ne (l : List (κ × ν)) {k k' : κ} (h : k' ≠ k) : assocGet (assocErase l k) k' = assocGet l k' := by
  induction l with
  | nil => rfl
  | cons e l ih =>
    obtain ⟨a, v⟩ := e
    unfold assocErase at ih ⊢
    rw [List.filter_cons]
    by_cases ha : a = k
    · have : a ≠ k' := fun e => h (e.symm.trans ha)
      simp only [ha, ne_eq, not_true_eq_false, decide_false, Bool.false_eq_true, if_false]
      rw [ih, assocGet, if_neg (ha ▸ this)]
    · simp only [ne_eq, ha, not_false_eq_true, decide_true, if_true]
      rw [assocGet, assocGet, ih]

theorem assocGet_set_self (l : List (κ × ν)) (k : κ) (v : ν) : assocGet (assocSet l k v) k = some v := by
  rw [assocSet, assocGet, if_pos rfl]

theorem assocGet_set_ne (l : List (κ × ν)) {k k' : κ} (v : ν) (h : k' ≠ k) : assocGet (assocSet l k v) k' = assocGet l k' := by
  rw [assocSet, assocGet, if_neg (fun e => h e.symm), assocGet_erase_ne l h]

theorem assocSet_nodup {l : List (κ × ν)} (hn : (l.map (·.1)).Nodup) (k : κ) (v : ν) : ((assocSet l k v).map (·.1)).Nodup := by
  rw [assocSet, List.map_cons, List.nodup_cons]
  exact ⟨assocGet_none_iff.1 (assocGet_erase_self l k), assocErase_nodup hn k⟩

theorem assocErase_of_none {l : List (κ × ν)} {k : κ} (h : assocGet l k = none) : assocErase l k = l := by
  rw [assocGet_none_iff] at h
  unfold assocErase
  rw [List.filter_eq_self]
  intro e he
  simp only [ne_eq, decide_not, Bool.not_eq_eq_eq_not, Bool.not_true, decide_eq_false_iff_not]
  exact fun hk => h (hk ▸ List.mem_map.2 ⟨e, he, rfl⟩)

theorem assocErase_set (l : List (κ × ν)) (k : κ) (v : ν) : assocErase (assocSet l k v) k = assocErase l k := by
  unfold assocSet assocErase
  rw [List.filter_cons]
  simp

/-- The entry with key `k`, taken out of the list. -/
theorem assoc_perm_cons {l : List (κ × ν)} (hn : (l.map (·.1)).Nodup) {k : κ} {v : ν} (h : assocGet l k = some v) :
    l.Perm ((k, v) :: assocErase l k) := by
  induction l with
  | nil => cases h
  | cons e l ih =>
    obtain ⟨a, w⟩ := e
    rw [List.map_cons, List.nodup_cons] at hn
    rw [assocGet] at h
    by_cases ha : a = k
    · rw [if_pos ha] at h
      cases h
      subst ha
      have := assocErase_of_none (assocGet_none_iff.2 hn.1)
      unfold assocErase at this ⊢
      rw [List.filter_cons]
      simp only [ne_eq, not_true_eq_false, decide_false, Bool.false_eq_true, if_false]
      simp only [ne_eq] at this
      rw [this]
    · rw [if_neg ha] at h
      have h2 := ih hn.2 h
      have : assocErase ((a, w) :: l) k = (a, w) :: assocErase l k := by
        unfold assocErase
        rw [List.filter_cons]
        simp [ha]
      rw [this]
      exact (h2.cons _).trans (List.Perm.swap _ _ _)

theorem assocErase_length_le (l : List (κ × ν)) (k : κ) : (assocErase l k).length ≤ l.length := List.length_filter_le _ _

theorem assocErase_length_of_some {l : List (κ × ν)} (hn : (l.map (·.1)).Nodup) {k : κ} {v : ν} (h : assocGet l k = some v) :
    (assocErase l k).length + 1 = l.length := by
  have := (assoc_perm_cons hn h).length_eq
  simpa using this.symm

theorem assocSet_length_of_some {l : List (κ × ν)} (hn : (l.map (·.1)).Nodup) {k : κ} {v : ν} (h : assocGet l k = some v) (w : ν) :
    (assocSet l k w).length = l.length := by
  rw [assocSet, List.length_cons, assocErase_length_of_some hn h]

theorem assocSet_length_of_none {l : List (κ × ν)} {k : κ} (h : assocGet l k = none) (w : ν) :
    (assocSet l k w).length = l.length + 1 := by
  rw [assocSet, List.length_cons, assocErase_of_none h]

theorem mem_assocErase {l : List (κ × ν)} {k : κ} {e : κ × ν} (h : e ∈ assocErase l k) : e ∈ l ∧ e.1 ≠ k := by
  unfold assocErase at h
  simpa using List.mem_filter.1 h

end Letmein
