import Verif.Spec.Json
import Verif.Lemmas.Ip
import Verif.Lemmas.Text

/-!
# Lemmas: reading back JSON texts
-/

namespace Letmein.Props
open Letmein Spec

/-! ## Strings -/

/-- The escape of a control character is read back. -/
def escapeOk (n : Nat) : Bool :=
  match jsonChar (Char.ofNat n) with
  | ['\\', e] => e != 'u' && letterEscape e == some (Char.ofNat n)
  | ['\\', 'u', a, b, c, d] => unicodeEscape a b c d == some (Char.ofNat n)
  | _ => false

theorem escapeOk_all : ∀ n, n < 32 → escapeOk n = true := by decide +kernel

theorem readString_letter {e : Char} (h : e ≠ 'u') (rest : List Char) :
    readString ('\\' :: e :: rest) = addChar (letterEscape e) (readString rest) := by
  rw [readString]
  intro a b c d r he
  exact absurd he h

theorem readString_plain {c : Char} (h1 : c ≠ '"') (h2 : c ≠ '\\') (h3 : ¬ c.toNat < 32) (rest : List Char) :
    readString (c :: rest) = addChar (some c) (readString rest) := by
  rw [readString.eq_def]
  split
  · rename_i he; cases he
  · rename_i he; injection he with he; exact absurd he h1
  · rename_i he; injection he with he; exact absurd he h2
  · rename_i he; injection he with he; exact absurd he h2
  · rename_i he
    injection he with he hr
    subst he hr
    rw [if_neg h3]

theorem readString_jsonChar (c : Char) (rest : List Char) :
    readString (jsonChar c ++ rest) = addChar (some c) (readString rest) := by
  by_cases hc : c.toNat < 32
  · have h := escapeOk_all c.toNat hc
    rw [escapeOk, Char.ofNat_toNat] at h
    split at h
    · rename_i e he
      rw [he]
      simp only [Bool.and_eq_true, bne_iff_ne, beq_iff_eq] at h
      show readString ('\\' :: e :: rest) = _
      rw [readString_letter h.1, h.2]
    · rename_i a b c' d he
      rw [he]
      simp only [beq_iff_eq] at h
      show readString ('\\' :: 'u' :: a :: b :: c' :: d :: rest) = _
      rw [readString, h]
    · cases h
  · by_cases h1 : c = '"'
    · subst h1
      show readString ('\\' :: '"' :: rest) = _
      rw [readString_letter (by decide)]; rfl
    · by_cases h2 : c = '\\'
      · subst h2
        show readString ('\\' :: '\\' :: rest) = _
        rw [readString_letter (by decide)]; rfl
      · have : jsonChar c = [c] := by
          rw [jsonChar, if_neg h1, if_neg h2, if_neg (by omega), if_neg (by omega), if_neg (by omega), if_neg (by omega), if_neg (by omega), if_neg hc]
        rw [this]
        exact readString_plain h1 h2 hc rest

theorem readString_chars (s rest : List Char) : readString ((s.map jsonChar).flatten ++ '"' :: rest) = some (s, rest) := by
  induction s with
  | nil => simp [readString]
  | cons c s ih =>
    rw [List.map_cons, List.flatten_cons, List.append_assoc, readString_jsonChar, ih]
    rfl

theorem readString_jsonString (s rest : List Char) : ∃ t, jsonString s ++ rest = '"' :: t ∧ readString t = some (s, rest) := by
  refine ⟨(s.map jsonChar).flatten ++ '"' :: rest, ?_, readString_chars s rest⟩
  simp [jsonString]

/-! ## Numbers -/

theorem digitLower_json : ∀ d, d < 10 → jsonDigit (digitLower d) = true ∧ (digitLower d).toNat - 48 = d ∧ (digitLower d = '0' → d = 0) ∧
    jsonWs (digitLower d) = false ∧ digitLower d ∉ ['n', '"', '[', '{', ']', '}'] := by decide +kernel

theorem showDigits_value (fuel n : Nat) (h : n < fuel) :
    (showDigits digitLower 10 fuel n).foldl (fun n d => n * 10 + (d.toNat - 48)) 0 = n := by
  induction fuel generalizing n with
  | zero => omega
  | succ fuel ih =>
    rw [showDigits]
    split
    · rename_i hn
      simp [(digitLower_json n hn).2.1]
    · rw [List.foldl_append, ih _ (by omega)]
      simp only [List.foldl_cons, List.foldl_nil, (digitLower_json (n % 10) (by omega)).2.1]
      omega

theorem showDigits_head (fuel n : Nat) (h : n < fuel) (h0 : (showDigits digitLower 10 fuel n).head? = some '0') : n = 0 := by
  induction fuel generalizing n with
  | zero => omega
  | succ fuel ih =>
    rw [showDigits] at h0
    split at h0
    · rename_i hn
      exact (digitLower_json n hn).2.2.1 (by simpa using h0)
    · rename_i hn
      have hne : showDigits digitLower 10 fuel (n / 10) ≠ [] := by
        cases fuel with
        | zero => omega
        | succ f => exact showDigits_ne_nil _ _ _ _
      rw [List.head?_append, List.head?_eq_some_head hne, Option.some_or, ← List.head?_eq_some_head hne] at h0
      have := ih _ (by omega) h0
      omega

theorem showNat_jsonDigits {n : Nat} {c : Char} (h : c ∈ showNat n) : ∃ d, d < 10 ∧ c = digitLower d := by
  obtain ⟨d, hd, rfl⟩ := mem_showDigits (digit := digitLower) (b := 10) (by omega) h
  exact ⟨d, hd, rfl⟩

/-- What may follow a value. -/
def EndsValue (rest : List Char) : Prop := rest = [] ∨ ∃ c t, rest = c :: t ∧ (c = ',' ∨ c = ']' ∨ c = '}')

theorem readNum_show (n : Nat) {rest : List Char} (h : EndsValue rest) : readNum (showNat n ++ rest) = some (n, rest) := by
  have hd : ∀ c ∈ showNat n, jsonDigit c = true := by
    intro c hc
    obtain ⟨d, hd, rfl⟩ := showNat_jsonDigits hc
    exact (digitLower_json d hd).1
  have h1 : (showNat n ++ rest).takeWhile jsonDigit = showNat n := by
    rw [List.takeWhile_append_of_pos hd]
    rcases h with rfl | ⟨c, t, rfl, rfl | rfl | rfl⟩ <;> simp [List.takeWhile, jsonDigit]
  have h2 : (showNat n ++ rest).dropWhile jsonDigit = rest := by
    rw [List.dropWhile_append_of_pos hd]
    rcases h with rfl | ⟨c, t, rfl, rfl | rfl | rfl⟩ <;> simp [List.dropWhile, jsonDigit]
  have h3 : ¬ (showNat n = [] ∨ ((showNat n).head? = some '0' ∧ (showNat n).length ≠ 1)) := by
    rintro (h | ⟨h, hl⟩)
    · exact showNat_ne_nil n h
    · have := showDigits_head _ _ (by omega) h
      subst this
      exact hl rfl
  rw [readNum]
  simp only [h1, h2]
  rw [if_neg h3, showNat, showDigits_value _ _ (by omega)]
  rcases h with rfl | ⟨c, t, rfl, rfl | rfl | rfl⟩ <;> simp

/-! ## Values -/

theorem skipWs_cons {c : Char} (h : jsonWs c = false) (t : List Char) : skipWs (c :: t) = c :: t := by
  simp [skipWs, List.dropWhile, h]

theorem show_first (v : Json) (rest : List Char) :
    ∃ c t, v.show ++ rest = c :: t ∧ jsonWs c = false ∧ c ≠ ']' ∧ c ≠ '}' := by
  cases v with
  | null => exact ⟨'n', _, rfl, by decide, by decide, by decide⟩
  | str s =>
    obtain ⟨t, ht, _⟩ := readString_jsonString s rest
    exact ⟨'"', t, by rw [Json.show, ht], by decide, by decide, by decide⟩
  | arr l => exact ⟨'[', _, by rw [Json.show]; rfl, by decide, by decide, by decide⟩
  | obj l => exact ⟨'{', _, by rw [Json.show]; rfl, by decide, by decide, by decide⟩
  | num n =>
    cases hs : showNat n with
    | nil => exact absurd hs (showNat_ne_nil n)
    | cons c t =>
      obtain ⟨d, hd, rfl⟩ := showNat_jsonDigits (n := n) (c := c) (by rw [hs]; simp)
      have := digitLower_json d hd
      refine ⟨digitLower d, t ++ rest, by rw [Json.show, hs]; rfl, this.2.2.2.1, ?_, ?_⟩
      · intro he; exact this.2.2.2.2 (by rw [he]; simp)
      · intro he; exact this.2.2.2.2 (by rw [he]; simp)

mutual
/-- Depth of the recursion that reads the value. -/
def jsonCost : Json → Nat
  | .arr l => 1 + listCost l
  | .obj l => 1 + fieldsCost l
  | _ => 1
/-- Depth of the recursion that reads the elements. -/
def listCost : JsonList → Nat
  | .nil => 0
  | .cons v l => 1 + max (jsonCost v) (listCost l)
/-- Depth of the recursion that reads the members. -/
def fieldsCost : JsonFields → Nat
  | .nil => 0
  | .cons _ v l => 1 + max (jsonCost v) (fieldsCost l)
end

/-- No elements. -/
def noElems : JsonList → Bool
  | .nil => true
  | _ => false
/-- No members. -/
def noMembers : JsonFields → Bool
  | .nil => true
  | _ => false

theorem noElems_iff {l : JsonList} : noElems l = true ↔ l = .nil := by cases l <;> simp [noElems]
theorem noMembers_iff {l : JsonFields} : noMembers l = true ↔ l = .nil := by cases l <;> simp [noMembers]

theorem JsonList.show_cons (v : Json) (l : JsonList) :
    (JsonList.cons v l).show = if noElems l = true then v.show else v.show ++ ',' :: l.show := by
  cases l with
  | nil => rw [JsonList.show]; rfl
  | cons w l => rw [JsonList.show] <;> simp [noElems]

theorem JsonFields.show_cons (k : Str) (v : Json) (l : JsonFields) :
    (JsonFields.cons k v l).show = jsonString k ++ ':' :: (if noMembers l = true then v.show else v.show ++ ',' :: l.show) := by
  cases l with
  | nil => rw [JsonFields.show]; rfl
  | cons w l => rw [JsonFields.show] <;> simp [noMembers]

theorem ends_comma (t : List Char) : EndsValue (',' :: t) := .inr ⟨_, _, rfl, .inl rfl⟩
theorem ends_bracket (t : List Char) : EndsValue (']' :: t) := .inr ⟨_, _, rfl, .inr (.inl rfl)⟩
theorem ends_brace (t : List Char) : EndsValue ('}' :: t) := .inr ⟨_, _, rfl, .inr (.inr rfl)⟩

mutual
theorem readValue_show (v : Json) (fuel : Nat) (rest : List Char) (hf : jsonCost v ≤ fuel) (he : EndsValue rest) :
    readValue fuel (v.show ++ rest) = some (v, rest) := by
  cases fuel with
  | zero => cases v <;> simp [jsonCost] at hf <;> omega
  | succ fuel =>
    cases v with
    | null =>
      show readValue (fuel + 1) ('n' :: 'u' :: 'l' :: 'l' :: rest) = _
      rw [readValue, skipWs_cons (by decide)]
      rfl
    | str s =>
      obtain ⟨t, ht, hr⟩ := readString_jsonString s rest
      rw [Json.show, ht, readValue, skipWs_cons (by decide)]
      simp only [hr]
    | num n =>
      cases hs : showNat n with
      | nil => exact absurd hs (showNat_ne_nil n)
      | cons c t =>
        obtain ⟨d, hd, rfl⟩ := showNat_jsonDigits (n := n) (c := c) (by rw [hs]; simp)
        obtain ⟨_, _, _, hw, hm⟩ := digitLower_json d hd
        have hn := readNum_show n he
        rw [hs] at hn
        rw [Json.show, hs, List.cons_append, readValue, skipWs_cons hw]
        split
        · rename_i heq; injection heq with heq; exact absurd (by rw [heq]; simp) hm
        · rename_i heq; injection heq with heq; exact absurd (by rw [heq]; simp) hm
        · rename_i heq; injection heq with heq; exact absurd (by rw [heq]; simp) hm
        · rename_i heq; injection heq with heq; exact absurd (by rw [heq]; simp) hm
        · rw [← List.cons_append, hn]
    | arr l =>
      rw [Json.show, List.cons_append, readValue, skipWs_cons (by decide)]
      cases l with
      | nil => rw [JsonList.show]; simp [skipWs_cons (c := ']') (by decide)]
      | cons w l =>
        have hr := readElems_show (.cons w l) fuel rest (by rw [jsonCost] at hf; omega) (by simp)
        obtain ⟨c, t, ht, hw, hc, _⟩ : ∃ c t, (JsonList.cons w l).show ++ ']' :: rest = c :: t ∧ jsonWs c = false ∧ c ≠ ']' ∧ c ≠ '}' := by
          rw [JsonList.show_cons]
          split
          · exact show_first _ _
          · rw [List.append_assoc]; exact show_first _ _
        rw [ht] at hr
        simp only [List.append_assoc, List.singleton_append, ht, skipWs_cons hw]
        split
        · rename_i heq; injection heq with heq; exact absurd heq hc
        · rw [hr]
    | obj l =>
      rw [Json.show, List.cons_append, readValue, skipWs_cons (by decide)]
      cases l with
      | nil => rw [JsonFields.show]; simp [skipWs_cons (c := '}') (by decide)]
      | cons k w l =>
        have hr := readMembers_show (.cons k w l) fuel rest (by rw [jsonCost] at hf; omega) (by simp)
        obtain ⟨t, ht⟩ : ∃ t, (JsonFields.cons k w l).show ++ '}' :: rest = '"' :: t := by
          rw [JsonFields.show_cons, jsonString]; exact ⟨_, rfl⟩
        rw [ht] at hr
        simp only [List.append_assoc, List.singleton_append, ht, skipWs_cons (c := '"') (by decide)]
        split
        · rename_i heq; injection heq with heq; exact absurd heq (by decide)
        · rw [hr]
theorem readElems_show (l : JsonList) (fuel : Nat) (rest : List Char) (hf : listCost l ≤ fuel) (hl : l ≠ .nil) :
    readElems fuel (l.show ++ ']' :: rest) = some (l, rest) := by
  cases l with
  | nil => exact absurd rfl hl
  | cons v l =>
    rw [listCost] at hf
    cases fuel with
    | zero => omega
    | succ fuel =>
      rw [JsonList.show_cons]
      split
      · rename_i hn
        rw [noElems_iff] at hn; subst hn
        rw [readElems, readValue_show v fuel (']' :: rest) (by omega) (ends_bracket _)]
        simp [skipWs_cons (c := ']') (by decide)]
      · rename_i hn
        rw [List.append_assoc, List.cons_append, readElems, readValue_show v fuel _ (by omega) (ends_comma _)]
        simp only [skipWs_cons (c := ',') (by decide), readElems_show l fuel rest (by omega) (fun h => hn (noElems_iff.2 h))]
theorem readMembers_show (l : JsonFields) (fuel : Nat) (rest : List Char) (hf : fieldsCost l ≤ fuel) (hl : l ≠ .nil) :
    readMembers fuel (l.show ++ '}' :: rest) = some (l, rest) := by
  cases l with
  | nil => exact absurd rfl hl
  | cons k v l =>
    rw [fieldsCost] at hf
    cases fuel with
    | zero => omega
    | succ fuel =>
      rw [JsonFields.show_cons, List.append_assoc]
      obtain ⟨t, ht, hr⟩ := readString_jsonString k (':' :: ((if noMembers l = true then v.show else v.show ++ ',' :: l.show) ++ '}' :: rest))
      rw [List.cons_append, ht, readMembers, skipWs_cons (by decide)]
      simp only [hr, skipWs_cons (c := ':') (by decide)]
      by_cases hn : noMembers l = true
      · simp only [if_pos hn]
        rw [noMembers_iff] at hn; subst hn
        rw [readValue_show v fuel ('}' :: rest) (by omega) (ends_brace _)]
        simp [skipWs_cons (c := '}') (by decide)]
      · simp only [if_neg hn]
        rw [List.append_assoc, List.cons_append, readValue_show v fuel _ (by omega) (ends_comma _)]
        simp only [skipWs_cons (c := ',') (by decide), readMembers_show l fuel rest (by omega) (fun h => hn (noMembers_iff.2 h))]
end

mutual
theorem jsonCost_le (v : Json) : jsonCost v ≤ v.show.length := by
  cases v with
  | null => decide
  | num n =>
    have := List.length_pos_iff.2 (showNat_ne_nil n)
    rw [jsonCost, Json.show]
    · omega
    all_goals simp
  | str s => rw [jsonCost, Json.show, jsonString] <;> simp
  | arr l => have := listCost_le l; simp only [jsonCost, Json.show, List.length_cons, List.length_append]; simp; omega
  | obj l => have := fieldsCost_le l; simp only [jsonCost, Json.show, List.length_cons, List.length_append]; simp; omega
theorem listCost_le (l : JsonList) : listCost l ≤ l.show.length + 1 := by
  cases l with
  | nil => simp [listCost]
  | cons v l =>
    have h1 := jsonCost_le v
    have h2 := listCost_le l
    rw [listCost, JsonList.show_cons]
    split
    · rename_i hn; rw [noElems_iff] at hn; subst hn; simp [listCost]; omega
    · simp; omega
theorem fieldsCost_le (l : JsonFields) : fieldsCost l ≤ l.show.length + 1 := by
  cases l with
  | nil => simp [fieldsCost]
  | cons k v l =>
    have h1 := jsonCost_le v
    have h2 := fieldsCost_le l
    rw [fieldsCost, JsonFields.show_cons]
    split
    · rename_i hn; rw [noMembers_iff] at hn; subst hn; simp [fieldsCost]; omega
    · simp; omega
end

theorem readJson_show (v : Json) : readJson v.show = some v := by
  have h := readValue_show v (4 * v.show.length + 4) [] (by have := jsonCost_le v; omega) (.inl rfl)
  rw [List.append_nil] at h
  rw [readJson, h]
  rfl

/-! ## Commands -/

theorem readAll_ofList {α : Type} {f : Json → Option α} {g : α → Json} (h : ∀ a, f (g a) = some a) (l : List α) :
    readAll f (.ofList (l.map g)) = some l := by
  induction l with
  | nil => rfl
  | cons a l ih =>
    rw [List.map_cons, JsonList.ofList, readAll, h, ih]

theorem readStmt_json (s : Stmt) : readStmt s.json = some s := by
  cases s with
  | matchSaddr p a => rfl
  | matchDport p n => rfl
  | accept => rfl

theorem readFamily_cons (f : NfFamily) (l : List (Str × Json)) : readFamily (jsonObj (("family".toList, f.json) :: l)) = some f := by
  cases f <;> rfl

theorem readCmd_json (c : NfCmd) : readCmd c.json = some c := by
  cases c with
  | add r =>
    obtain ⟨f, t, c, e, k⟩ := r
    have h := readAll_ofList readStmt_json e
    cases k with
    | none => cases f <;> (show (readAll readStmt _).bind _ = _; rw [h]; rfl)
    | some k => cases f <;> (show (readAll readStmt _).bind _ = _; rw [h]; rfl)
  | delete f t c h => cases f <;> rfl
  | flush f t c => cases f <;> rfl

theorem readNft_text (cmds : List NfCmd) : readNft (nftText cmds) = some cmds := by
  rw [readNft, nftText, readJson_show]
  exact readAll_ofList readCmd_json cmds

end Letmein.Props
