import Verif.Lemmas.ConfItems

/-!
# Lemmas: the control port
-/

namespace Letmein

open Spec

theorem isNumber_trim (s : Str) : isNumber (trim s) = isNumber s := by unfold isNumber; rw [trim_trim]

theorem numberItem_iff {item : Str} {p : UInt16} (h : ':' ∉ item) :
    NumberItem item p ↔ ',' ∉ item ∧ isNumber item = true ∧ parseU16 item = .ok p := by
  unfold NumberItem
  have hp : p.toNat ≤ 0xFFFF := by have := p.toNat_lt; omega
  have key := plainNatText_iff (max := 0xFFFF) (n := p.toNat) (s := item)
  have e : parseUInt 0xFFFF item = .ok p.toNat ↔ parseU16 item = .ok p := by
    rw [parseU16_iff, parseUInt_iff]; simp [hp]
  rw [e] at key
  rw [key]
  simp [h, hp]

theorem numberItem_unique {item : Str} {p q : UInt16} (hp : NumberItem item p) (hq : NumberItem item q) : p = q := by
  have h := hp.1
  rw [numberItem_iff h] at hp hq
  have := hp.2.2.symm.trans hq.2.2
  injection this

theorem isNumber_not_word {s : Str} {w : String} {c : Char} (hw : ∀ c ∈ w.toList, LowerFixed c) (hc : w.toList.head? = some c)
    (hd : isAsciiDigit c = false) (h : isNumber s = true) : ¬ WordText s w := by
  intro h'
  rw [← lower_trim_eq hw] at h'
  unfold isNumber at h
  simp only at h
  generalize trim s = t at *
  have hfirst : ∀ x, t.head? = some x → isAsciiDigit x = true := by
    intro x hx
    rcases stripPrefix_0x t with ⟨r, rfl, e⟩ | ⟨-, e⟩
    · simp at hx; subst hx; decide
    · rw [e] at h
      simp only [List.all_eq_true] at h
      exact h x (List.mem_of_mem_head? hx)
  cases t with
  | nil => rw [← h'] at hc; cases hc
  | cons x t =>
    rw [← h'] at hc
    simp only [toLowercase, List.map_cons, List.head?_cons, Option.some.injEq] at hc
    have hx := hfirst x rfl
    have : lowerChar x = x := by
      unfold lowerChar
      unfold isAsciiDigit at hx
      simp only [Bool.and_eq_true, decide_eq_true_eq] at hx
      rw [if_neg (by omega), if_neg (by omega)]
    rw [this] at hc
    subst hc
    rw [hx] at hd; cases hd

theorem number_not_tcp {s : Str} (h : isNumber s = true) : ¬ WordText s "tcp" :=
  isNumber_not_word (c := 't') (by decide) (by decide) (by decide) h

theorem number_not_udp {s : Str} (h : isNumber s = true) : ¬ WordText s "udp" :=
  isNumber_not_word (c := 'u') (by decide) (by decide) (by decide) h

/-- The last number among the items. -/
def LastNum (start : UInt16) (items : List Str) (p : UInt16) : Prop :=
  (∃ a item b, items = a ++ item :: b ∧ NumberItem item p ∧ ∀ j ∈ b, ¬ ∃ p, NumberItem j p) ∨
    (p = start ∧ ∀ j ∈ items, ¬ ∃ p, NumberItem j p)

theorem lastNum_nil {s p : UInt16} : LastNum s [] p ↔ p = s := by simp [LastNum]

theorem lastNum_number {s q p : UInt16} {i : Str} {is : List Str} (h : NumberItem i q) : LastNum s (i :: is) p ↔ LastNum q is p := by
  unfold LastNum
  constructor
  · rintro (⟨a, j, b, e, hj, hb⟩ | ⟨-, h1⟩)
    · cases a with
      | nil =>
        simp only [List.nil_append, List.cons.injEq] at e
        obtain ⟨rfl, rfl⟩ := e
        exact .inr ⟨numberItem_unique hj h, hb⟩
      | cons x a =>
        simp only [List.cons_append, List.cons.injEq] at e
        exact .inl ⟨a, j, b, e.2, hj, hb⟩
    · exact absurd ⟨q, h⟩ (h1 i (by simp))
  · rintro (⟨a, j, b, rfl, hj, hb⟩ | ⟨rfl, h1⟩)
    · exact .inl ⟨i :: a, j, b, rfl, hj, hb⟩
    · exact .inl ⟨[], i, is, rfl, h, h1⟩

theorem lastNum_other {s p : UInt16} {i : Str} {is : List Str} (h : ¬ ∃ q, NumberItem i q) : LastNum s (i :: is) p ↔ LastNum s is p := by
  unfold LastNum
  constructor
  · rintro (⟨a, j, b, e, hj, hb⟩ | ⟨rfl, h1⟩)
    · cases a with
      | nil =>
        simp only [List.nil_append, List.cons.injEq] at e
        obtain ⟨rfl, rfl⟩ := e
        exact absurd ⟨p, hj⟩ h
      | cons x a =>
        simp only [List.cons_append, List.cons.injEq] at e
        exact .inl ⟨a, j, b, e.2, hj, hb⟩
    · exact .inr ⟨rfl, fun j hj => h1 j (by simp [hj])⟩
  · rintro (⟨a, j, b, rfl, hj, hb⟩ | ⟨rfl, h1⟩)
    · exact .inl ⟨i :: a, j, b, rfl, hj, hb⟩
    · refine .inr ⟨rfl, ?_⟩
      intro j hj
      rcases List.mem_cons.1 hj with rfl | hj
      · exact h
      · exact h1 j hj

/-- Both loops of the parser of the control port. -/
def portLoop (cp : ControlPort) (raws : List Str) : R ControlPort := do
  let is ← parseItems raws
  portItems cp is

structure PortEffect (cp : ControlPort) (raws : List Str) (cp' : ControlPort) : Prop where
  valid : ∀ item ∈ raws, (∃ p, NumberItem item p) ∨ ProtoItem item
  port : LastNum cp.port raws cp'.port
  tcp : cp'.tcp = true ↔ cp.tcp = true ∨ HasWord raws "tcp"
  udp : cp'.udp = true ↔ cp.udp = true ∨ HasWord raws "udp"

theorem portEffect_nil {cp cp' : ControlPort} : PortEffect cp [] cp' ↔ cp = cp' := by
  constructor
  · rintro ⟨-, h1, h2, h3⟩
    rw [lastNum_nil] at h1
    have e3 : cp.tcp = cp'.tcp := by rw [Bool.eq_iff_iff, h2]; simp [HasWord]
    have e4 : cp.udp = cp'.udp := by rw [Bool.eq_iff_iff, h3]; simp [HasWord]
    cases cp; cases cp'; simp_all
  · rintro rfl
    exact ⟨by simp, lastNum_nil.2 rfl, by simp [HasWord], by simp [HasWord]⟩

theorem portLoop_cons_kv {cp cp' : ControlPort} {k v : Str} {raws : List Str} (h : ':' ∉ k) :
    portLoop cp ((k ++ ':' :: v) :: raws) ≠ .ok cp' := by
  unfold portLoop
  rw [parseItems, parseItem_kv h]
  split
  · simp
  · simp only [R.bind_ok, ne_eq, R.bind_eq_ok]
    rintro ⟨is, ⟨is', h1, h2⟩, h3⟩
    injection h2 with h2
    subst h2
    unfold kvItem at h3
    split at h3 <;> simp [portItems] at h3

theorem portLoop_cons_values {cp cp' : ControlPort} {item : Str} {raws : List Str} (h : ':' ∉ item) :
    portLoop cp (item :: raws) = .ok cp' ↔
      if ',' ∉ item ∧ isNumber item = true then ∃ p, parseU16 item = .ok p ∧ portLoop { cp with port := p } raws = .ok cp'
      else ∃ tu, protoWords (cp.tcp, cp.udp) ((splitOn ',' item).map trim) = .ok tu ∧
        portLoop { cp with tcp := tu.1, udp := tu.2 } raws = .ok cp' := by
  unfold portLoop
  rw [parseItems, parseItem_values h]
  simp only [R.bind_ok, R.bind_eq_ok]
  have hcond : ((List.map trim (splitOn ',' item)).length = 1 ∧ isNumber ((List.map trim (splitOn ',' item)).headD []) = true) ↔
      (',' ∉ item ∧ isNumber item = true) := by
    by_cases hc : ',' ∈ item
    · obtain ⟨a, b, rfl, ha⟩ := List.eq_append_cons_of_mem hc
      rw [splitOn_append_sep ha]
      have := splitOn_ne_nil ',' b
      simp [this]
    · rw [splitOn_of_not_mem hc]
      simp [hc, isNumber_trim]
  by_cases hb : ',' ∉ item ∧ isNumber item = true
  · rw [if_pos hb]
    have e : (List.map trim (splitOn ',' item)).headD [] = trim item := by rw [splitOn_of_not_mem hb.1]; rfl
    have e2 : parseU16 (trim item) = parseU16 item := by unfold parseU16 parseUInt; rw [trim_trim]
    constructor
    · rintro ⟨is, ⟨is', h1, h2⟩, h3⟩
      injection h2 with h2
      subst h2
      rw [portItems, if_pos (hcond.2 hb), R.bind_eq_ok, e, e2] at h3
      obtain ⟨p, h4, h5⟩ := h3
      exact ⟨p, h4, is', h1, h5⟩
    · rintro ⟨p, h4, is', h1, h5⟩
      refine ⟨_, ⟨is', h1, rfl⟩, ?_⟩
      rw [portItems, if_pos (hcond.2 hb), R.bind_eq_ok, e, e2]
      exact ⟨p, h4, h5⟩
  · rw [if_neg hb]
    constructor
    · rintro ⟨is, ⟨is', h1, h2⟩, h3⟩
      injection h2 with h2
      subst h2
      rw [portItems, if_neg (fun x => hb (hcond.1 x)), R.bind_eq_ok] at h3
      obtain ⟨p, h4, h5⟩ := h3
      exact ⟨p, h4, is', h1, h5⟩
    · rintro ⟨p, h4, is', h1, h5⟩
      refine ⟨_, ⟨is', h1, rfl⟩, ?_⟩
      rw [portItems, if_neg (fun x => hb (hcond.1 x)), R.bind_eq_ok]
      exact ⟨p, h4, h5⟩

theorem portLoop_iff {cp cp' : ControlPort} {raws : List Str} : portLoop cp raws = .ok cp' ↔ PortEffect cp raws cp' := by
  induction raws generalizing cp with
  | nil => rw [portEffect_nil]; simp [portLoop, parseItems, portItems]
  | cons item raws ih =>
    rcases item_cases item with h | ⟨k, v, rfl, h⟩
    · rw [portLoop_cons_values h]
      by_cases hb : ',' ∉ item ∧ isNumber item = true
      · rw [if_pos hb]
        have hsp : splitOn ',' item = [item] := splitOn_of_not_mem hb.1
        have nt : ¬ HasWord [item] "tcp" := by rw [hasWord_values h, hsp]; simpa using number_not_tcp hb.2
        have nu : ¬ HasWord [item] "udp" := by rw [hasWord_values h, hsp]; simpa using number_not_udp hb.2
        constructor
        · rintro ⟨p, h1, h2⟩
          rw [ih] at h2
          have hi : NumberItem item p := (numberItem_iff h).2 ⟨hb.1, hb.2, h1⟩
          refine ⟨?_, (lastNum_number hi).2 h2.port, ?_, ?_⟩
          · intro i hmem
            rcases List.mem_cons.1 hmem with rfl | hmem
            · exact .inl ⟨p, hi⟩
            · exact h2.valid i hmem
          · rw [h2.tcp, hasWord_cons (items := raws)]; simp [nt]
          · rw [h2.udp, hasWord_cons (items := raws)]; simp [nu]
        · intro he
          rcases he.valid item (by simp) with ⟨p, hi⟩ | hp
          · refine ⟨p, ((numberItem_iff h).1 hi).2.2, ?_⟩
            rw [ih]
            have ht := he.tcp
            have hu := he.udp
            rw [hasWord_cons (items := raws)] at ht hu
            simp only [nt, nu, false_or] at ht hu
            exact ⟨fun i hmem => he.valid i (by simp [hmem]), (lastNum_number hi).1 he.port, ht, hu⟩
          · rw [protoItem_iff h, hsp] at hp
            rcases hp item (by simp) with hp | hp
            · exact absurd hp (number_not_tcp hb.2)
            · exact absurd hp (number_not_udp hb.2)
      · rw [if_neg hb]
        have hn : ¬ ∃ q, NumberItem item q := by
          rintro ⟨q, hq⟩
          rw [numberItem_iff h] at hq
          exact hb ⟨hq.1, hq.2.1⟩
        constructor
        · rintro ⟨⟨t, u⟩, h1, h2⟩
          rw [ih] at h2
          rw [protoWords_iff, ← protoItem_iff h, ← hasWord_values h, ← hasWord_values h] at h1
          obtain ⟨h3, h4, h5⟩ := h1
          refine ⟨?_, (lastNum_other hn).2 h2.port, ?_, ?_⟩
          · intro i hi
            rcases List.mem_cons.1 hi with rfl | hi
            · exact .inr h3
            · exact h2.valid i hi
          · rw [h2.tcp, hasWord_cons (items := raws), h4, or_assoc]
          · rw [h2.udp, hasWord_cons (items := raws), h5, or_assoc]
        · intro he
          have h3 : ProtoItem item := (he.valid item (by simp)).resolve_left hn
          have hw := protoItem_iff h |>.1 h3
          refine ⟨(decide (cp.tcp = true ∨ ∃ p ∈ splitOn ',' item, toLowercase (trim p) = "tcp".toList),
            decide (cp.udp = true ∨ ∃ p ∈ splitOn ',' item, toLowercase (trim p) = "udp".toList)), ?_, ?_⟩
          · rw [protoWords_iff]
            refine ⟨hw, ?_, ?_⟩
            · rw [decide_eq_true_iff]
              simp only [lower_trim_eq (w := "tcp") (by decide)]
            · rw [decide_eq_true_iff]
              simp only [lower_trim_eq (w := "udp") (by decide)]
          · rw [ih]
            refine ⟨fun i hi => he.valid i (by simp [hi]), (lastNum_other hn).1 he.port, ?_, ?_⟩
            · rw [he.tcp, hasWord_cons (items := raws), hasWord_values h, decide_eq_true_iff]
              simp only [lower_trim_eq (w := "tcp") (by decide), or_assoc]
            · rw [he.udp, hasWord_cons (items := raws), hasWord_values h, decide_eq_true_iff]
              simp only [lower_trim_eq (w := "udp") (by decide), or_assoc]
    · constructor
      · intro h1; exact absurd h1 (portLoop_cons_kv h)
      · intro he
        rcases he.valid (k ++ ':' :: v) (by simp) with ⟨p, hp, -⟩ | ⟨hp, -⟩ <;> exact absurd (by simp) hp

theorem portItems_not_panic (cp : ControlPort) (is : List MapItem) : portItems cp is ≠ .panic := by
  induction is generalizing cp with
  | nil => simp [portItems]
  | cons i is ih =>
    cases i with
    | KeyValue k v => simp [portItems]
    | KeyValues k vs => simp [portItems]
    | Values vs =>
      rw [portItems]
      split
      · exact R.bind_not_panic (parseU16_not_panic _) fun _ _ => ih _
      · exact R.bind_not_panic (protoWords_not_panic _ _) fun _ _ => ih _

/-- The control port is read as specified. -/
theorem parsePort_iff {s : Str} {cp : ControlPort} : parsePort s = .ok cp ↔ PortText s cp := by
  have e : parsePort s = (do
      let cp ← portLoop { port := PORT, tcp := false, udp := false } (splitOn '/' s)
      .ok (if !cp.tcp && !cp.udp then { cp with tcp := true } else cp)) := by
    unfold parsePort parseMap portLoop
    cases parseItems (splitOn '/' s) <;> rfl
  rw [e]
  unfold PortText
  rw [exists_pieces (P := fun items =>
    (∀ item ∈ items, (∃ p, NumberItem item p) ∨ ProtoItem item) ∧
    ((∃ a item b, items = a ++ item :: b ∧ NumberItem item cp.port ∧ ∀ j ∈ b, ¬ ∃ p, NumberItem j p) ∨
      (cp.port = PORT ∧ ∀ j ∈ items, ¬ ∃ p, NumberItem j p)) ∧
    Protocols items cp.tcp cp.udp)]
  generalize splitOn '/' s = items
  rw [R.bind_eq_ok]
  constructor
  · rintro ⟨c, h1, h2⟩
    rw [portLoop_iff] at h1
    injection h2 with h2
    have htcp := h1.tcp
    have hudp := h1.udp
    simp only [Bool.false_eq_true, false_or] at htcp hudp
    have hport : cp.port = c.port := by rw [← h2]; split <;> rfl
    refine ⟨h1.valid, ?_, ?_, ?_⟩
    · rw [hport]; exact h1.port
    · rw [← htcp, ← hudp, ← h2]
      obtain ⟨p, t, u⟩ := c
      cases t <;> cases u <;> simp
    · rw [← hudp, ← h2]
      obtain ⟨p, t, u⟩ := c
      cases t <;> cases u <;> simp
  · rintro ⟨h1, h2, h4, h5⟩
    obtain ⟨t, ht⟩ : ∃ t : Bool, (t = true ↔ HasWord items "tcp") := by
      by_cases h : HasWord items "tcp"
      · exact ⟨true, by simp [h]⟩
      · exact ⟨false, by simp [h]⟩
    refine ⟨{ port := cp.port, tcp := t, udp := cp.udp }, portLoop_iff.2 ⟨h1, h2, by simp [ht], by simp [h5]⟩, ?_⟩
    rw [← ht, ← h5] at h4
    obtain ⟨p, t', u⟩ := cp
    simp only at h4
    cases t <;> cases u <;> cases t' <;> first | rfl | (exfalso; revert h4; decide)

theorem parsePort_not_panic (s : Str) : parsePort s ≠ .panic := by
  unfold parsePort parseMap
  exact R.bind_not_panic (parseItems_not_panic _) fun is _ => R.bind_not_panic (portItems_not_panic _ _) (by simp)

end Letmein
