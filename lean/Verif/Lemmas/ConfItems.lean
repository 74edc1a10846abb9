import Verif.Lemmas.ConfNum

/-!
# Lemmas: the items of the control port and of resources
-/

namespace Letmein

open Spec

/-! ### Pieces -/

theorem pieces_iff {c : Char} {s : Str} {ps : List Str} : Pieces c s ps ↔ splitOn c s = ps := by
  constructor
  · intro h
    induction h with
    | last hp => exact splitOn_of_not_mem hp
    | cons hp _ ih => rw [splitOn_append_sep hp, ih]
  · rintro rfl
    have h1 : ∀ p ∈ splitOn c s, c ∉ p := fun p hp => not_mem_of_mem_splitOn hp
    have h2 := splitOn_ne_nil c s
    have h3 := joinWith_splitOn c s
    generalize splitOn c s = ps at h1 h2 h3
    subst h3
    induction ps with
    | nil => exact absurd rfl h2
    | cons p ps ih =>
      cases ps with
      | nil => exact .last (h1 p (by simp))
      | cons q qs =>
        exact .cons (h1 p (by simp)) (ih (fun x hx => h1 x (by simp [hx])) (by simp))

theorem exists_pieces {c : Char} {s : Str} {P : List Str → Prop} : (∃ ps, Pieces c s ps ∧ P ps) ↔ P (splitOn c s) := by
  constructor
  · rintro ⟨ps, h, hp⟩; rw [pieces_iff] at h; rwa [h]
  · intro h; exact ⟨_, pieces_iff.2 rfl, h⟩

theorem findIdx_not_mem {c : Char} {s : Str} (h : c ∉ s) : s.findIdx? (fun x => decide (x = c)) = none := by
  rw [List.findIdx?_eq_none_iff]
  intro x hx
  simp only [decide_eq_false_iff_not]
  exact fun e => h (e ▸ hx)

theorem findIdx_append {c : Char} {a : Str} (h : c ∉ a) (b : Str) : (a ++ c :: b).findIdx? (fun x => decide (x = c)) = some a.length := by
  rw [List.findIdx?_append, findIdx_not_mem h]
  simp [List.findIdx?_cons]

/-- An item either has no colon or is cut at the first one. -/
theorem item_cases (item : Str) : ':' ∉ item ∨ ∃ k v, item = k ++ ':' :: v ∧ ':' ∉ k := by
  by_cases h : ':' ∈ item
  · obtain ⟨k, v, h1, h2⟩ := List.eq_append_cons_of_mem h
    exact .inr ⟨k, v, h1, h2⟩
  · exact .inl h

theorem parseItem_values {item : Str} (h : ':' ∉ item) : parseItem item = .ok (.Values ((splitOn ',' item).map trim)) := by
  unfold parseItem
  rw [findIdx_not_mem h]

/-- What an item with key and value is parsed to. -/
def kvItem (k v : Str) : MapItem := if ',' ∈ v then .KeyValues (trim k) ((splitOn ',' v).map trim) else .KeyValue (trim k) (trim v)

theorem parseItem_kv {k v : Str} (h : ':' ∉ k) :
    parseItem (k ++ ':' :: v) = if trim k = [] then .err else .ok (kvItem k v) := by
  unfold parseItem
  rw [findIdx_append h]
  simp only
  by_cases hk : k = []
  · subst hk
    have : trim [] = [] := by decide
    simp [this]
  · have : k.length ≠ 0 := by simpa using hk
    rw [if_neg (by omega)]
    have e1 : (k ++ ':' :: v).take k.length = k := by simp
    have e2 : (k ++ ':' :: v).drop (k.length + 1) = v := by
      rw [List.drop_append]; simp
    rw [e1, e2]
    unfold kvItem
    simp only [List.isEmpty_iff, List.contains_iff_mem]
    split
    · rfl
    · split <;> rfl

theorem parseItem_not_panic (item : Str) : parseItem item ≠ .panic := by
  rcases item_cases item with h | ⟨k, v, rfl, h⟩
  · rw [parseItem_values h]; simp
  · rw [parseItem_kv h]; split <;> simp

theorem parseItems_not_panic (l : List Str) : parseItems l ≠ .panic := by
  induction l with
  | nil => simp [parseItems]
  | cons p ps ih =>
    exact R.bind_not_panic (parseItem_not_panic p) fun _ _ => R.bind_not_panic ih (by simp)

theorem append_cons_inj {c : Char} {a a' b b' : Str} (ha : c ∉ a) (ha' : c ∉ a') (h : a ++ c :: b = a' ++ c :: b') : a = a' ∧ b = b' := by
  have h1 := congrArg (fun l => l.findIdx? (fun x => decide (x = c))) h
  simp only [findIdx_append ha, findIdx_append ha', Option.some.injEq] at h1
  have := List.append_inj h h1
  exact ⟨this.1, by simpa using this.2⟩

theorem keyItem_kv {k v v' : Str} {key : String} (h : ':' ∉ k) : KeyItem (k ++ ':' :: v) key v' ↔ v' = v ∧ trim k = key.toList := by
  constructor
  · rintro ⟨k', e, hk', ht⟩
    obtain ⟨rfl, rfl⟩ := append_cons_inj h hk' e
    exact ⟨rfl, trimmed_iff.1 ht⟩
  · rintro ⟨rfl, ht⟩
    exact ⟨k, rfl, h, trimmed_iff.2 ht⟩

theorem keyItem_not {item v : Str} {key : String} (h : ':' ∉ item) : ¬ KeyItem item key v := by
  rintro ⟨k, rfl, -, -⟩
  exact h (by simp)

/-! ### Protocols -/

theorem lower_trim_eq {p : Str} {w : String} (hw : ∀ c ∈ w.toList, LowerFixed c) : toLowercase (trim p) = w.toList ↔ WordText p w := by
  rw [wordText_iff hw, trim_toLowercase]

theorem tcp_not_udp {p : Str} (h : WordText p "tcp") : ¬ WordText p "udp" := by
  intro h'
  rw [← lower_trim_eq (by decide)] at h h'
  rw [h] at h'
  exact absurd h' (by decide)

theorem protoWords_iff {t u t' u' : Bool} {ps : List Str} :
    protoWords (t, u) (ps.map trim) = .ok (t', u') ↔
      (∀ p ∈ ps, WordText p "tcp" ∨ WordText p "udp") ∧ (t' = true ↔ t = true ∨ ∃ p ∈ ps, WordText p "tcp") ∧
        (u' = true ↔ u = true ∨ ∃ p ∈ ps, WordText p "udp") := by
  induction ps generalizing t u with
  | nil =>
    cases t <;> cases u <;> cases t' <;> cases u' <;> simp [protoWords]
  | cons p ps ih =>
    rw [List.map_cons, protoWords]
    by_cases h1 : WordText p "tcp"
    · rw [if_pos ((lower_trim_eq (by decide)).2 h1), ih]
      have h2 := tcp_not_udp h1
      simp [h1, h2]
    · rw [if_neg (fun e => h1 ((lower_trim_eq (by decide)).1 e))]
      by_cases h2 : WordText p "udp"
      · rw [if_pos ((lower_trim_eq (by decide)).2 h2), ih]
        simp [h1, h2]
      · rw [if_neg (fun e => h2 ((lower_trim_eq (by decide)).1 e))]
        simp [h1, h2]

theorem protoWords_not_panic (tu : Bool × Bool) (ps : List Str) : protoWords tu ps ≠ .panic := by
  induction ps generalizing tu with
  | nil => cases tu; simp [protoWords]
  | cons p ps ih =>
    obtain ⟨t, u⟩ := tu
    rw [protoWords]
    split
    · exact ih _
    · split
      · exact ih _
      · simp

theorem hasWord_cons {item : Str} {items : List Str} {w : String} : HasWord (item :: items) w ↔ HasWord [item] w ∨ HasWord items w := by
  unfold HasWord; simp

theorem hasWord_values {item : Str} {w : String} (h : ':' ∉ item) : HasWord [item] w ↔ ∃ p ∈ splitOn ',' item, WordText p w := by
  unfold HasWord
  simp only [List.mem_singleton, exists_eq_left, h, not_false_eq_true, true_and]
  exact exists_pieces (P := fun ps => ∃ p ∈ ps, WordText p w)

theorem hasWord_kv {k v : Str} {w : String} : ¬ HasWord [k ++ ':' :: v] w := by
  rintro ⟨item, hi, h, -⟩
  rw [List.mem_singleton] at hi
  subst hi
  exact h (by simp)

theorem protoItem_iff {item : Str} (h : ':' ∉ item) : ProtoItem item ↔ ∀ p ∈ splitOn ',' item, WordText p "tcp" ∨ WordText p "udp" := by
  unfold ProtoItem
  simp only [h, not_false_eq_true, true_and]
  exact exists_pieces (P := fun ps => ∀ p ∈ ps, WordText p "tcp" ∨ WordText p "udp")

/-! ### At most one item of a kind -/

/-- A cell set by at most one item. -/
inductive Once {α : Type} (V : Str → α → Prop) (K : Str → Prop) : Option α → List Str → Option α → Prop
  | nil {o : Option α} : Once V K o [] o
  | skip {o o' : Option α} {i : Str} {is : List Str} : ¬ K i → Once V K o is o' → Once V K o (i :: is) o'
  | set {x : α} {o' : Option α} {i : Str} {is : List Str} : V i x → Once V K (some x) is o' → Once V K none (i :: is) o'

section
variable {α : Type} {V : Str → α → Prop} {K : Str → Prop}

theorem once_some {x : α} {is : List Str} {o : Option α} : Once V K (some x) is o ↔ o = some x ∧ ∀ j ∈ is, ¬ K j := by
  constructor
  · intro h
    generalize he : some x = s at h
    induction h with
    | nil => subst he; exact ⟨rfl, by simp⟩
    | skip hk _ ih =>
      obtain ⟨h1, h2⟩ := ih he
      exact ⟨h1, by simpa using ⟨hk, h2⟩⟩
    | set => cases he
  · rintro ⟨rfl, h⟩
    induction is with
    | nil => exact .nil
    | cons i is ih => exact .skip (h i (by simp)) (ih (fun j hj => h j (by simp [hj])))

theorem once_none_none {is : List Str} : Once V K none is none ↔ ∀ j ∈ is, ¬ K j := by
  induction is with
  | nil => exact ⟨by simp, fun _ => .nil⟩
  | cons i is ih =>
    constructor
    · intro h
      cases h with
      | skip hk h => simpa using ⟨hk, ih.1 h⟩
      | set hv h => rw [once_some] at h; cases h.1
    · intro h
      exact .skip (h i (by simp)) (ih.2 (fun j hj => h j (by simp [hj])))

theorem once_none_some {x : α} {is : List Str} :
    Once V K none is (some x) ↔ ∃ a i b, is = a ++ i :: b ∧ V i x ∧ ∀ j ∈ a ++ b, ¬ K j := by
  induction is with
  | nil =>
    constructor
    · intro h; cases h
    · rintro ⟨a, i, b, h, -⟩; simp at h
  | cons i is ih =>
    constructor
    · intro h
      cases h with
      | skip hk h =>
        obtain ⟨a, j, b, rfl, hv, hn⟩ := ih.1 h
        exact ⟨i :: a, j, b, rfl, hv, by simpa using ⟨hk, by simpa using hn⟩⟩
      | set hv h =>
        rw [once_some] at h
        obtain ⟨h1, h2⟩ := h
        injection h1 with h1
        subst h1
        exact ⟨[], i, is, rfl, hv, h2⟩
    · rintro ⟨a, j, b, e, hv, hn⟩
      cases a with
      | nil =>
        simp only [List.nil_append, List.cons.injEq] at e hn
        obtain ⟨rfl, rfl⟩ := e
        exact .set hv (once_some.2 ⟨rfl, hn⟩)
      | cons k a =>
        simp only [List.cons_append, List.cons.injEq] at e
        obtain ⟨rfl, rfl⟩ := e
        exact .skip (hn _ (by simp)) (ih.2 ⟨a, j, b, rfl, hv, fun j hj => hn j (by simp at hj ⊢; exact .inr hj)⟩)

end

/-! ### Resources -/

/-- The texts of a list of users. -/
def UsersRaw (item : Str) (vs : List Str) : Prop := ∃ v, KeyItem item "users" v ∧ vs = (splitOn ',' v).map trim

/-- The list of users as an optional value. -/
def optUsers (us : List Str) : Option (List Str) := if us = [] then none else some us

theorem optUsers_inj {a b : List Str} (h : optUsers a = optUsers b) : a = b := by
  unfold optUsers at h
  split at h <;> split at h
  · simp_all
  · cases h
  · cases h
  · injection h

theorem usersRaw_ne_nil {item : Str} {vs : List Str} (h : UsersRaw item vs) : vs ≠ [] := by
  obtain ⟨v, -, rfl⟩ := h
  simpa using splitOn_ne_nil ',' v

theorem number_no_comma {r n : Nat} (hr : r ≤ 36) {t : Str} (h : Number r t n) : ',' ∉ t := by
  have comma : ∀ d, toDigit r ',' ≠ some d := by intro d; simp [toDigit]
  have key : ∀ t, Numeral r t n → ',' ∉ t := by
    intro t h hm
    obtain ⟨d, hd⟩ := digitsValue_all ((numeral_iff hr).1 h).2 _ hm
    exact comma d hd
  rcases h with h | ⟨u, rfl, h⟩
  · exact key _ h
  · intro hm
    rcases List.mem_cons.1 hm with hm | hm
    · exact absurd hm (by decide)
    · exact key _ h hm

theorem natText_no_comma {s : Str} {n : Nat} (h : NatText s n) : ',' ∉ s := by
  obtain ⟨t, ⟨⟨a, b, rfl, ha, hb⟩, -, -⟩, hn⟩ := h
  have ws : isWhitespace ',' = false := by decide
  have h1 : ',' ∉ a := fun hm => by rw [ha _ hm] at ws; cases ws
  have h2 : ',' ∉ b := fun hm => by rw [hb _ hm] at ws; cases ws
  have h3 : ',' ∉ t := by
    rcases hn with hn | ⟨h, rfl, hn⟩
    · exact number_no_comma (by omega) hn
    · have := number_no_comma (by omega) hn
      simp [this]
  simp [h1, h2, h3]

theorem natText_trim {s : Str} {n : Nat} : NatText (trim s) n ↔ NatText s n := by
  unfold NatText
  rw [exists_trimmed (P := fun t => Number 10 t n ∨ ∃ h, t = '0' :: 'x' :: h ∧ Number 16 h n),
    exists_trimmed (P := fun t => Number 10 t n ∨ ∃ h, t = '0' :: 'x' :: h ∧ Number 16 h n), trim_trim]

/-- Validity of a resource item, users not yet read. -/
def ResItemOk (item : Str) : Prop := (∃ p, PortItem item p) ∨ (∃ vs, UsersRaw item vs) ∨ ProtoItem item

/-- Both loops of the resource parser. -/
def resLoop (st : ResItems) (raws : List Str) : R ResItems := do
  let is ← parseItems raws
  resItems st is

/-- The effect of the remaining items on the variables. -/
structure ResEffect (st : ResItems) (raws : List Str) (st' : ResItems) : Prop where
  valid : ∀ item ∈ raws, ResItemOk item
  port : Once PortItem (fun j => ∃ v, KeyItem j "port" v) st.port raws st'.port
  users : Once UsersRaw (fun j => ∃ v, KeyItem j "users" v) (optUsers st.users) raws (optUsers st'.users)
  tcp : st'.tcp = true ↔ st.tcp = true ∨ HasWord raws "tcp"
  udp : st'.udp = true ↔ st.udp = true ∨ HasWord raws "udp"

theorem resEffect_nil {st st' : ResItems} : ResEffect st [] st' ↔ st = st' := by
  constructor
  · rintro ⟨-, h1, h2, h3, h4⟩
    have e1 : st.port = st'.port := by
      generalize st.port = a at *
      generalize st'.port = b at *
      cases h1; rfl
    have e2 : st.users = st'.users := by
      apply optUsers_inj
      generalize optUsers st.users = a at *
      generalize optUsers st'.users = b at *
      cases h2; rfl
    have e3 : st.tcp = st'.tcp := by rw [Bool.eq_iff_iff, h3]; simp [HasWord]
    have e4 : st.udp = st'.udp := by rw [Bool.eq_iff_iff, h4]; simp [HasWord]
    cases st; cases st'; simp_all
  · rintro rfl
    exact ⟨by simp, .nil, .nil, by simp [HasWord], by simp [HasWord]⟩

theorem resLoop_cons_values {st : ResItems} {item : Str} {raws : List Str} (h : ':' ∉ item) (st' : ResItems) :
    resLoop st (item :: raws) = .ok st' ↔
      ∃ tu, protoWords (st.tcp, st.udp) ((splitOn ',' item).map trim) = .ok tu ∧ resLoop { st with tcp := tu.1, udp := tu.2 } raws = .ok st' := by
  unfold resLoop
  rw [parseItems, parseItem_values h]
  simp only [R.bind_ok, R.bind_eq_ok]
  constructor
  · rintro ⟨is, ⟨is', h1, h2⟩, h3⟩
    injection h2 with h2
    subst h2
    rw [resItems, R.bind_eq_ok] at h3
    obtain ⟨tu, h4, h5⟩ := h3
    exact ⟨tu, h4, is', h1, h5⟩
  · rintro ⟨tu, h4, is', h1, h5⟩
    exact ⟨_, ⟨is', h1, rfl⟩, by rw [resItems, R.bind_eq_ok]; exact ⟨tu, h4, h5⟩⟩

theorem resLoop_cons_kv {st : ResItems} {k v : Str} {raws : List Str} (h : ':' ∉ k) (st' : ResItems) :
    resLoop st ((k ++ ':' :: v) :: raws) = .ok st' ↔
      (trim k = "port".toList ∧ st.port = none ∧ ∃ p : UInt16, NatText v p.toNat ∧ resLoop { st with port := some p } raws = .ok st') ∨
      (trim k = "users".toList ∧ st.users = [] ∧ resLoop { st with users := (splitOn ',' v).map trim } raws = .ok st') := by
  unfold resLoop
  rw [parseItems, parseItem_kv h]
  have hpu : "port".toList ≠ "users".toList := by decide
  by_cases hk : trim k = []
  · rw [if_pos hk, hk]
    have h1 : [] ≠ "port".toList := by decide
    have h2 : [] ≠ "users".toList := by decide
    simp [h1, h2]
  · rw [if_neg hk]
    simp only [R.bind_ok, R.bind_eq_ok]
    unfold kvItem
    by_cases hv : ',' ∈ v
    · rw [if_pos hv]
      constructor
      · rintro ⟨is, ⟨is', h1, h2⟩, h3⟩
        injection h2 with h2
        subst h2
        rw [resItems] at h3
        by_cases e1 : trim k = "port".toList
        · rw [if_pos e1] at h3; cases h3
        · rw [if_neg e1] at h3
          by_cases e2 : trim k = "users".toList
          · rw [if_pos e2] at h3
            by_cases e3 : st.users.isEmpty = true
            · rw [if_neg (by simpa using e3)] at h3
              exact .inr ⟨e2, by simpa using e3, is', h1, h3⟩
            · rw [if_pos e3] at h3; cases h3
          · rw [if_neg e2] at h3; cases h3
      · rintro (⟨-, -, p, hn, -⟩ | ⟨e2, e3, is', h1, h3⟩)
        · exact absurd hv (natText_no_comma hn)
        · refine ⟨_, ⟨is', h1, rfl⟩, ?_⟩
          rw [resItems]
          rw [if_neg (by rw [e2]; exact hpu.symm), if_pos e2, if_neg (by simpa using e3)]
          exact h3
    · rw [if_neg hv, splitOn_of_not_mem hv]
      constructor
      · rintro ⟨is, ⟨is', h1, h2⟩, h3⟩
        injection h2 with h2
        subst h2
        rw [resItems] at h3
        by_cases e1 : trim k = "port".toList
        · rw [if_pos e1] at h3
          by_cases e3 : st.port.isSome = true
          · rw [if_pos e3] at h3; cases h3
          · rw [if_neg e3, R.bind_eq_ok] at h3
            obtain ⟨p, h4, h5⟩ := h3
            exact .inl ⟨e1, by simpa using e3, p, natText_trim.1 (parseU16_iff.1 h4), is', h1, h5⟩
        · rw [if_neg e1] at h3
          by_cases e2 : trim k = "users".toList
          · rw [if_pos e2] at h3
            by_cases e3 : st.users.isEmpty = true
            · rw [if_neg (by simpa using e3)] at h3
              exact .inr ⟨e2, by simpa using e3, is', h1, h3⟩
            · rw [if_pos e3] at h3; cases h3
          · rw [if_neg e2] at h3; cases h3
      · rintro (⟨e1, e3, p, hn, is', h1, h3⟩ | ⟨e2, e3, is', h1, h3⟩)
        · refine ⟨_, ⟨is', h1, rfl⟩, ?_⟩
          rw [resItems]
          rw [if_pos e1, if_neg (by simp [e3]), R.bind_eq_ok]
          exact ⟨p, parseU16_iff.2 (natText_trim.2 hn), h3⟩
        · refine ⟨_, ⟨is', h1, rfl⟩, ?_⟩
          rw [resItems]
          rw [if_neg (by rw [e2]; exact hpu.symm), if_pos e2, if_neg (by simpa using e3)]
          exact h3

theorem portItem_kv {k v : Str} {p : UInt16} (h : ':' ∉ k) : PortItem (k ++ ':' :: v) p ↔ trim k = "port".toList ∧ NatText v p.toNat := by
  unfold PortItem
  simp only [keyItem_kv h]
  constructor
  · rintro ⟨_, ⟨rfl, h1⟩, h2⟩; exact ⟨h1, h2⟩
  · rintro ⟨h1, h2⟩; exact ⟨v, ⟨rfl, h1⟩, h2⟩

theorem usersRaw_kv {k v : Str} {vs : List Str} (h : ':' ∉ k) :
    UsersRaw (k ++ ':' :: v) vs ↔ trim k = "users".toList ∧ vs = (splitOn ',' v).map trim := by
  unfold UsersRaw
  simp only [keyItem_kv h]
  constructor
  · rintro ⟨_, ⟨rfl, h1⟩, h2⟩; exact ⟨h1, h2⟩
  · rintro ⟨h1, h2⟩; exact ⟨v, ⟨rfl, h1⟩, h2⟩

theorem resLoop_iff {st st' : ResItems} {raws : List Str} : resLoop st raws = .ok st' ↔ ResEffect st raws st' := by
  induction raws generalizing st with
  | nil => rw [resEffect_nil]; simp [resLoop, parseItems, resItems]
  | cons item raws ih =>
    rcases item_cases item with h | ⟨k, v, rfl, h⟩
    · rw [resLoop_cons_values h]
      constructor
      · rintro ⟨⟨t, u⟩, h1, h2⟩
        rw [ih] at h2
        rw [protoWords_iff, ← protoItem_iff h, ← hasWord_values h, ← hasWord_values h] at h1
        obtain ⟨h3, h4, h5⟩ := h1
        refine ⟨?_, .skip ?_ h2.port, .skip ?_ h2.users, ?_, ?_⟩
        · intro i hi
          rcases List.mem_cons.1 hi with rfl | hi
          · exact .inr (.inr h3)
          · exact h2.valid i hi
        · rintro ⟨v, hv⟩; exact keyItem_not h hv
        · rintro ⟨v, hv⟩; exact keyItem_not h hv
        · rw [h2.tcp, hasWord_cons (items := raws)]; simp only; rw [h4, or_assoc]
        · rw [h2.udp, hasWord_cons (items := raws)]; simp only; rw [h5, or_assoc]
      · intro he
        have h3 : ProtoItem item := by
          rcases he.valid item (by simp) with ⟨p, v, hv, -⟩ | ⟨vs, v, hv, -⟩ | h3
          · exact absurd hv (keyItem_not h)
          · exact absurd hv (keyItem_not h)
          · exact h3
        have hw := protoItem_iff h |>.1 h3
        refine ⟨(decide (st.tcp = true ∨ ∃ p ∈ splitOn ',' item, toLowercase (trim p) = "tcp".toList),
          decide (st.udp = true ∨ ∃ p ∈ splitOn ',' item, toLowercase (trim p) = "udp".toList)), ?_, ?_⟩
        · rw [protoWords_iff]
          refine ⟨hw, ?_, ?_⟩
          · rw [decide_eq_true_iff]
            simp only [lower_trim_eq (w := "tcp") (by decide)]
          · rw [decide_eq_true_iff]
            simp only [lower_trim_eq (w := "udp") (by decide)]
        · rw [ih]
          refine ⟨fun i hi => he.valid i (by simp [hi]), ?_, ?_, ?_, ?_⟩
          · have := he.port
            simp only
            generalize st.port = a at *
            generalize st'.port = b at *
            cases this with
            | skip _ h => exact h
            | set hv _ => obtain ⟨v, hv, -⟩ := hv; exact absurd hv (keyItem_not h)
          · have := he.users
            simp only
            generalize optUsers st.users = a at *
            generalize optUsers st'.users = b at *
            cases this with
            | skip _ h => exact h
            | set hv _ => obtain ⟨v, hv, -⟩ := hv; exact absurd hv (keyItem_not h)
          · rw [he.tcp, hasWord_cons (items := raws), hasWord_values h, decide_eq_true_iff]
            simp only [lower_trim_eq (w := "tcp") (by decide), or_assoc]
          · rw [he.udp, hasWord_cons (items := raws), hasWord_values h, decide_eq_true_iff]
            simp only [lower_trim_eq (w := "udp") (by decide), or_assoc]
    · have hpu : "port".toList ≠ "users".toList := by decide
      rw [resLoop_cons_kv h]
      constructor
      · rintro (⟨h1, h2, p, h3, h4⟩ | ⟨h1, h2, h4⟩)
        · rw [ih] at h4
          refine ⟨?_, ?_, .skip ?_ h4.users, ?_, ?_⟩
          · intro i hi
            rcases List.mem_cons.1 hi with rfl | hi
            · exact .inl ⟨p, (portItem_kv h).2 ⟨h1, h3⟩⟩
            · exact h4.valid i hi
          · rw [h2]
            exact .set ((portItem_kv h).2 ⟨h1, h3⟩) h4.port
          · rintro ⟨v', hv⟩
            rw [keyItem_kv h, h1] at hv
            exact hpu hv.2
          · rw [h4.tcp, hasWord_cons (items := raws)]; simp [hasWord_kv]
          · rw [h4.udp, hasWord_cons (items := raws)]; simp [hasWord_kv]
        · rw [ih] at h4
          have hu : UsersRaw (k ++ ':' :: v) ((splitOn ',' v).map trim) := (usersRaw_kv h).2 ⟨h1, rfl⟩
          refine ⟨?_, .skip ?_ h4.port, ?_, ?_, ?_⟩
          · intro i hi
            rcases List.mem_cons.1 hi with rfl | hi
            · exact .inr (.inl ⟨_, hu⟩)
            · exact h4.valid i hi
          · rintro ⟨v', hv⟩
            rw [keyItem_kv h, h1] at hv
            exact hpu hv.2.symm
          · have := h4.users
            simp only at this
            rw [h2, optUsers, if_pos rfl]
            rw [show optUsers ((splitOn ',' v).map trim) = some ((splitOn ',' v).map trim) from if_neg (usersRaw_ne_nil hu)] at this
            exact .set hu this
          · rw [h4.tcp, hasWord_cons (items := raws)]; simp [hasWord_kv]
          · rw [h4.udp, hasWord_cons (items := raws)]; simp [hasWord_kv]
      · intro he
        have htcp := he.tcp
        have hudp := he.udp
        rw [hasWord_cons (items := raws)] at htcp hudp
        simp only [hasWord_kv, false_or] at htcp hudp
        rcases he.valid _ (by simp : (k ++ ':' :: v) ∈ _) with ⟨p, hp⟩ | ⟨vs, hu⟩ | ⟨hn, -⟩
        · left
          have hp' := (portItem_kv h).1 hp
          have hport := he.port
          have husers := he.users
          refine ⟨hp'.1, ?_⟩
          generalize hso : st.port = so at *
          cases hport with
          | skip hk _ => exact absurd ⟨v, (keyItem_kv h).2 ⟨rfl, hp'.1⟩⟩ hk
          | @set p' _ _ _ hv' hr =>
            refine ⟨rfl, p', ((portItem_kv h).1 hv').2, ?_⟩
            rw [ih]
            refine ⟨fun i hi => he.valid i (by simp [hi]), hr, ?_, htcp, hudp⟩
            simp only
            generalize optUsers st.users = a at *
            generalize optUsers st'.users = b at *
            cases husers with
            | skip _ h => exact h
            | set hv _ =>
              have := ((usersRaw_kv h).1 hv).1
              rw [hp'.1] at this; exact absurd this hpu
        · right
          have hu' := (usersRaw_kv h).1 hu
          have hport := he.port
          have husers := he.users
          refine ⟨hu'.1, ?_⟩
          generalize hso : optUsers st.users = so at *
          generalize hso' : optUsers st'.users = so' at *
          cases husers with
          | skip hk _ => exact absurd ⟨v, (keyItem_kv h).2 ⟨rfl, hu'.1⟩⟩ hk
          | @set vs' _ _ _ hv' hr =>
            have e := ((usersRaw_kv h).1 hv').2
            subst e
            refine ⟨?_, ?_⟩
            · unfold optUsers at hso; split at hso
              · assumption
              · cases hso
            rw [ih]
            refine ⟨fun i hi => he.valid i (by simp [hi]), ?_, ?_, htcp, hudp⟩
            · simp only
              generalize st.port = a at *
              generalize st'.port = b at *
              cases hport with
              | skip _ h => exact h
              | set hv _ =>
                have := ((portItem_kv h).1 hv).1
                rw [hu'.1] at this; exact absurd this.symm hpu
            · rw [hso']
              rw [show optUsers ((splitOn ',' v).map trim) = some ((splitOn ',' v).map trim) from if_neg (usersRaw_ne_nil hv')]
              exact hr
        · exact absurd (by simp) hn

theorem resItems_not_panic (st : ResItems) (is : List MapItem) : resItems st is ≠ .panic := by
  induction is generalizing st with
  | nil => simp [resItems]
  | cons i is ih =>
    cases i with
    | KeyValue k v =>
      rw [resItems]
      split
      · split
        · simp
        · exact R.bind_not_panic (parseU16_not_panic _) fun _ _ => ih _
      · split
        · split
          · simp
          · exact ih _
        · simp
    | KeyValues k vs =>
      rw [resItems]
      split
      · simp
      · split
        · split
          · simp
          · exact ih _
        · simp
    | Values vs => rw [resItems]; exact R.bind_not_panic (protoWords_not_panic _ _) fun _ _ => ih _

theorem idText_trim {s : Str} {x : UInt32} : IdText (trim s) x ↔ IdText s x := by
  unfold IdText
  rw [exists_trimmed (P := fun t => Number 16 t x.toNat), exists_trimmed (P := fun t => Number 16 t x.toNat), trim_trim]

theorem resUsers_iff {ps : List Str} {us : List UserId} : resUsers (ps.map trim) = .ok us ↔ IdTexts ps us := by
  induction ps generalizing us with
  | nil =>
    simp only [List.map_nil, resUsers, R.ok.injEq]
    constructor
    · rintro rfl; exact .nil
    · intro h; cases h; rfl
  | cons p ps ih =>
    simp only [List.map_cons, resUsers, R.bind_eq_ok]
    constructor
    · rintro ⟨x, h1, us', h2, h3⟩
      injection h3 with h3
      subst h3
      exact .cons (idText_trim.1 (parseId_iff.1 h1)) (ih.1 h2)
    · intro h
      cases h with
      | cons h1 h2 => exact ⟨_, parseId_iff.2 (idText_trim.2 h1), _, ih.2 h2, rfl⟩

theorem resUsers_not_panic (l : List Str) : resUsers l ≠ .panic := by
  induction l with
  | nil => simp [resUsers]
  | cons u us ih => exact R.bind_not_panic (parseId_not_panic u) fun _ _ => R.bind_not_panic ih (by simp)

/-- The value of a resource is read as specified. -/
theorem parseResource_iff {s : Str} {r : Resource} : parseResource s = .ok r ↔ ResourceText s r := by
  have e : parseResource s = (do
      let st ← resLoop { port := none, users := [], tcp := false, udp := false } (splitOn '/' s)
      match st.port with
      | none => .err
      | some port =>
        let users ← resUsers st.users
        .ok { port, tcp := st.tcp || !st.udp, udp := st.udp, users }) := by
    unfold parseResource parseMap resLoop
    cases parseItems (splitOn '/' s) <;> rfl
  rw [e]
  unfold ResourceText
  rw [exists_pieces (P := fun items =>
    (∀ item ∈ items, (∃ p, PortItem item p) ∨ (∃ us, UsersItem item us) ∨ ProtoItem item) ∧
    (∃ a item b, items = a ++ item :: b ∧ PortItem item r.port ∧ ∀ j ∈ a ++ b, ¬ ∃ v, KeyItem j "port" v) ∧
    ((∃ a item b, items = a ++ item :: b ∧ UsersItem item r.users ∧ ∀ j ∈ a ++ b, ¬ ∃ v, KeyItem j "users" v) ∨
      (r.users = [] ∧ ∀ j ∈ items, ¬ ∃ v, KeyItem j "users" v)) ∧
    Protocols items r.tcp r.udp)]
  generalize splitOn '/' s = items
  rw [R.bind_eq_ok]
  constructor
  · rintro ⟨st, h1, h2⟩
    rw [resLoop_iff] at h1
    cases hp : st.port with
    | none => rw [hp] at h2; cases h2
    | some port =>
      rw [hp] at h2
      simp only [R.bind_eq_ok] at h2
      obtain ⟨us, h3, h4⟩ := h2
      injection h4 with h4
      subst h4
      have hport := h1.port
      rw [hp] at hport
      have husers : (∃ a item b, items = a ++ item :: b ∧ UsersItem item us ∧ ∀ j ∈ a ++ b, ¬ ∃ v, KeyItem j "users" v) ∨
          (us = [] ∧ ∀ j ∈ items, ¬ ∃ v, KeyItem j "users" v) := by
        have hu := h1.users
        simp only at hu
        rw [show optUsers [] = none from rfl] at hu
        by_cases hn : st.users = []
        · right
          rw [hn, show optUsers [] = none from rfl, once_none_none] at hu
          refine ⟨?_, hu⟩
          rw [hn] at h3; injection h3 with h3; exact h3.symm
        · left
          rw [show optUsers st.users = some st.users from if_neg hn, once_none_some] at hu
          obtain ⟨a, i, b, h4, ⟨v, h5, h6⟩, h7⟩ := hu
          refine ⟨a, i, b, h4, ⟨v, _, h5, pieces_iff.2 rfl, ?_⟩, h7⟩
          rw [h6, resUsers_iff] at h3
          exact h3
      refine ⟨?_, once_none_some.1 hport, husers, ?_, ?_⟩
      · intro i hi
        rcases h1.valid i hi with h | ⟨vs, v, hv⟩ | h
        · exact .inl h
        · right; left
          rcases husers with ⟨a, item, b, rfl, hu, hno⟩ | ⟨-, hno⟩
          · simp only [List.mem_append, List.mem_cons] at hi hno
            rcases hi with hi | rfl | hi
            · exact absurd ⟨v, hv.1⟩ (hno i (.inl hi))
            · exact ⟨us, hu⟩
            · exact absurd ⟨v, hv.1⟩ (hno i (.inr hi))
          · exact absurd ⟨v, hv.1⟩ (hno i hi)
        · exact .inr (.inr h)
      · have htcp := h1.tcp
        have hudp := h1.udp
        simp only [Bool.false_eq_true, false_or] at htcp hudp
        rw [← htcp, ← hudp]
        cases st.tcp <;> cases st.udp <;> simp
      · have hudp := h1.udp
        simp only [Bool.false_eq_true, false_or] at hudp
        exact hudp
  · rintro ⟨h1, h2, h3, h4, h5⟩
    obtain ⟨raw, hraw, hus⟩ : ∃ raw, Once UsersRaw (fun j => ∃ v, KeyItem j "users" v) none items (optUsers raw) ∧ resUsers raw = .ok r.users := by
      rcases h3 with ⟨a, i, b, e1, ⟨v, ps, e2, e3, e4⟩, e5⟩ | ⟨e1, e2⟩
      · rw [pieces_iff] at e3
        have hu : UsersRaw i (ps.map trim) := ⟨v, e2, by rw [e3]⟩
        refine ⟨ps.map trim, ?_, resUsers_iff.2 e4⟩
        rw [show optUsers (ps.map trim) = some (ps.map trim) from if_neg (usersRaw_ne_nil hu)]
        exact once_none_some.2 ⟨a, i, b, e1, hu, e5⟩
      · exact ⟨[], once_none_none.2 e2, by rw [e1]; rfl⟩
    have htu : HasWord items "tcp" → True := fun _ => trivial
    obtain ⟨t, ht⟩ : ∃ t : Bool, (t = true ↔ HasWord items "tcp") := by
      by_cases h : HasWord items "tcp"
      · exact ⟨true, by simp [h]⟩
      · exact ⟨false, by simp [h]⟩
    refine ⟨{ port := some r.port, users := raw, tcp := t, udp := r.udp }, resLoop_iff.2 ⟨?_, ?_, hraw, ?_, ?_⟩, ?_⟩
    · intro i hi
      rcases h1 i hi with h | ⟨us, v, ps, h, hp, -⟩ | h
      · exact .inl h
      · exact .inr (.inl ⟨_, v, h, rfl⟩)
      · exact .inr (.inr h)
    · exact once_none_some.2 h2
    · simp [ht]
    · simp [h5]
    · simp only [hus, R.bind_ok, R.ok.injEq]
      have : (t || !r.udp) = r.tcp := by
        rw [Bool.eq_iff_iff, h4, ← h5, ← ht]
        simp
      rw [this]

theorem parseResource_not_panic (s : Str) : parseResource s ≠ .panic := by
  unfold parseResource parseMap
  refine R.bind_not_panic (parseItems_not_panic _) fun is _ => R.bind_not_panic (resItems_not_panic _ _) fun st _ => ?_
  split
  · simp
  · exact R.bind_not_panic (resUsers_not_panic _) (by simp)

end Letmein
