import Verif.Spec.Network
import Verif.Props.Client

/-!
# Lemmas for the attacker model
-/

namespace Letmein

open Prog Spec

theorem proj_nil (sid : Nat) : proj sid [] = [] := rfl

theorem proj_append (sid : Nat) (a b : List GEv) : proj sid (a ++ b) = proj sid a ++ proj sid b := by simp [proj]

theorem proj_cons_self (sid : Nat) (e : Ev) (G : List GEv) : proj sid ((sid, e) :: G) = e :: proj sid G := by simp [proj]

theorem proj_cons_ne {sid sid' : Nat} (h : sid' ≠ sid) (e : Ev) (G : List GEv) : proj sid ((sid', e) :: G) = proj sid G := by
  simp [proj, h]

theorem mem_proj {sid : Nat} {e : Ev} {G : List GEv} : e ∈ proj sid G ↔ (sid, e) ∈ G := by
  simp only [proj, List.mem_map, List.mem_filter, decide_eq_true_eq]
  constructor
  · rintro ⟨⟨i, e'⟩, ⟨h, rfl⟩, rfl⟩; exact h
  · intro h; exact ⟨_, ⟨h, rfl⟩, rfl⟩

theorem proj_split {sid : Nat} {G : List GEv} {l1 l2 : List Ev} {e : Ev} (h : proj sid G = l1 ++ e :: l2) :
    ∃ p1 p2, G = p1 ++ (sid, e) :: p2 ∧ proj sid p1 = l1 := by
  induction G generalizing l1 with
  | nil => simp [proj] at h
  | cons g G ih =>
    obtain ⟨i, e'⟩ := g
    by_cases hi : i = sid
    · subst hi
      rw [proj_cons_self] at h
      cases l1 with
      | nil => simp at h; exact ⟨[], G, by simp [h.1], rfl⟩
      | cons x l1 =>
        simp at h
        obtain ⟨p1, p2, hG, hp⟩ := ih h.2
        exact ⟨(i, e') :: p1, p2, by simp [hG], by rw [proj_cons_self, hp, h.1]⟩
    · rw [proj_cons_ne hi] at h
      obtain ⟨p1, p2, hG, hp⟩ := ih h
      exact ⟨(i, e') :: p1, p2, by simp [hG], by rw [proj_cons_ne hi, hp]⟩

theorem sublist_pair {α : Type} {a b : α} {l : List α} (h : [a, b].Sublist l) :
    ∃ l1 l2, l = l1 ++ b :: l2 ∧ a ∈ l1 := by
  induction l with
  | nil => cases h
  | cons x l ih =>
    cases h with
    | cons _ h =>
      obtain ⟨l1, l2, rfl, hm⟩ := ih h
      exact ⟨x :: l1, l2, rfl, List.mem_cons_of_mem _ hm⟩
    | cons_cons _ h =>
      have hb : b ∈ l := h.subset (by simp)
      obtain ⟨l1, l2, rfl⟩ := List.append_of_mem hb
      exact ⟨a :: l1, l2, rfl, by simp⟩

theorem authText_inj {op op' : Operation} {u u' : UserId} {r r' : ResourceId} {s s' : Salt} {c c' : Auth}
    (h : authText (Props.opNumber op) u.raw.toNat r.raw.toNat s.val c.val =
      authText (Props.opNumber op') u'.raw.toNat r'.raw.toNat s'.val c'.val) :
    op = op' ∧ u = u' ∧ r = r' ∧ s = s' ∧ c = c' := by
  have := Props.C03_macText_injective (Message.new op u r s) (Message.new op' u' r' s') c c'
    (by rw [Props.C03_macText_spec, Props.C03_macText_spec]; exact h)
  exact this

/-- Pigeonhole: if every element of a duplicate-free list is related to an element of `l`, and no element of `l` is related
to two of them, then there are at most `l.length` of them. -/
theorem injective_length {α β : Type} (R : α → β → Prop) (xs : List α) (l : List β) (hn : xs.Nodup)
    (h : ∀ x ∈ xs, ∃ y ∈ l, R x y) (hinj : ∀ x ∈ xs, ∀ x' ∈ xs, ∀ y, R x y → R x' y → x = x') : xs.length ≤ l.length := by
  classical
  induction xs generalizing l with
  | nil => simp
  | cons x xs ih =>
    obtain ⟨y, hy, hxy⟩ := h x (by simp)
    rw [List.nodup_cons] at hn
    have := ih (l.erase y) hn.2 (by
      intro x' hx'
      obtain ⟨y', hy', hr⟩ := h x' (by simp [hx'])
      refine ⟨y', ?_, hr⟩
      have hne : y' ≠ y := by
        intro he
        subst he
        exact hn.1 ((hinj x (by simp) x' (by simp [hx']) _ hxy hr) ▸ hx')
      exact (List.mem_erase_of_ne hne).2 hy')
      (fun a ha b hb => hinj a (by simp [ha]) b (by simp [hb]))
    rw [List.length_erase_of_mem hy] at this
    have : 0 < l.length := List.length_pos_of_mem hy
    simp only [List.length_cons]
    omega

end Letmein
