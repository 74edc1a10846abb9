import Verif.Model.ConfMsg
import Verif.Spec.ConfMsg
import Verif.Props.Conf

/-!
# C115: what is printed about a configuration does not tell the keys
-/

namespace Letmein.Props
open Letmein Prog Spec

/-! ### Keys -/

theorem parseHexPairs_zeros : ∀ n, parseHexPairs (List.replicate (2 * n) '0') = .ok (List.replicate n 0)
  | 0 => rfl
  | n + 1 => by
    rw [show 2 * (n + 1) = 2 * n + 1 + 1 by omega, List.replicate_succ, List.replicate_succ, parseHexPairs,
      parseHexPairs_zeros n]
    rfl

theorem parseHexPairs_ones : ∀ (n : Nat) (t : Str), t.length = 2 * n → (∀ c ∈ t, c = 'F' ∨ c = 'f') →
    parseHexPairs t = .ok (List.replicate n 0xFF)
  | 0, t, h, _ => by
    have : t = [] := List.length_eq_zero_iff.1 (by omega)
    rw [this]; rfl
  | n + 1, a :: b :: t, h, hc => by
    rw [parseHexPairs, parseHexPairs_ones n t (by simp at h; omega) (fun c hm => hc c (by simp [hm]))]
    rcases hc a (by simp) with rfl | rfl <;> rcases hc b (by simp) with rfl | rfl <;> rfl
  | n + 1, [], h, _ => by simp at h
  | n + 1, [_], h, _ => by simp at h; omega

theorem hexPairs_digits {t : Str} {bs : Bytes} (h : HexPairs t bs) : ∀ c ∈ t, ∃ d, IsDigit 16 c d := by
  induction h with
  | nil => simp
  | cons ha hb _ ih =>
    intro c hc
    simp only [List.mem_cons] at hc
    rcases hc with rfl | rfl | hc
    · exact ⟨_, ha⟩
    · exact ⟨_, hb⟩
    · exact ih c hc

theorem parseHex_err_of {v : Str} (h : ∀ k : Key, ¬ HexPairs (trim v) k.val) : parseHex KEY_SIZE v = .err := by
  cases hp : parseHex KEY_SIZE v with
  | ok k => exact absurd (parseHex_iff.1 hp) (h k)
  | err => rfl
  | panic => exact absurd hp (parseHex_not_panic _ _)

/-- What the parser and its error text make of a value of each kind. -/
def kindOutcome : KeyKind → R (Option Key) × Option Str
  | .foreign => (.err, some "Hex string contains invalid characters.".toList)
  | .length n =>
    (.err, some ("Hex string is too short: Expected ".toList ++ showNat (KEY_SIZE * 2) ++ ", got ".toList ++ showNat n ++ " chars".toList))
  | .noDigit => (.err, some "invalid digit found in string".toList)
  | .zeros => (.ok (some (Arr.replicate KEY_SIZE 0)), none)
  | .ones => (.ok (some (Arr.replicate KEY_SIZE 0xFF)), none)
  | .key => (.ok none, none)

/-- The key, if it is one of the two that are refused; the text, if there is none. -/
def valueOutcome (v : Str) : R (Option Key) × Option Str :=
  match parseHex KEY_SIZE v with
  | .ok k => (.ok (if k = Arr.replicate KEY_SIZE 0 ∨ k = Arr.replicate KEY_SIZE 0xFF then some k else none), none)
  | .err => (.err, some (hexText KEY_SIZE v))
  | .panic => (.panic, none)

theorem looks_outcome {v : Str} {k : KeyKind} (h : KeyLooks v k) : valueOutcome v = kindOutcome k := by
  unfold valueOutcome
  cases h with
  | @foreign t c ht hc h128 =>
    have hnot : ¬ (trim v).all (fun c => decide (c.toNat < 128)) = true := by
      rw [trimmed_iff.1 ht, List.all_eq_true]
      intro hall
      have := hall c hc
      simp at this
      omega
    have he : parseHex KEY_SIZE v = .err := by
      unfold parseHex
      simp only
      rw [if_pos hnot]
    rw [he]
    show (_, some (hexText KEY_SIZE v)) = _
    unfold hexText kindOutcome
    simp only
    rw [if_pos hnot]
  | @length t ht hall hlen =>
    have hascii : ¬ ¬ (trim v).all (fun c => decide (c.toNat < 128)) = true := by
      rw [trimmed_iff.1 ht, List.all_eq_true]
      simpa using hall
    have hl : (trim v).length ≠ KEY_SIZE * 2 := by rw [trimmed_iff.1 ht]; exact hlen
    have he : parseHex KEY_SIZE v = .err := by
      unfold parseHex
      simp only
      rw [if_neg hascii, if_pos hl]
    rw [he]
    show (_, some (hexText KEY_SIZE v)) = _
    unfold hexText kindOutcome
    simp only
    rw [if_neg hascii, if_pos hl, trimmed_iff.1 ht]
  | @noDigit t c ht hall hlen hc hd =>
    have hascii : ¬ ¬ (trim v).all (fun c => decide (c.toNat < 128)) = true := by
      rw [trimmed_iff.1 ht, List.all_eq_true]
      simpa using hall
    have hl : ¬ (trim v).length ≠ KEY_SIZE * 2 := by rw [trimmed_iff.1 ht]; exact fun h => h hlen
    rw [parseHex_err_of (by
      intro k hk
      rw [trimmed_iff.1 ht] at hk
      obtain ⟨d, h⟩ := hexPairs_digits hk c hc
      exact hd d h)]
    show (_, some (hexText KEY_SIZE v)) = _
    unfold hexText kindOutcome
    simp only
    rw [if_neg hascii, if_neg hl]
  | zeros ht =>
    have : parseHex KEY_SIZE v = .ok (Arr.replicate KEY_SIZE 0) := by
      rw [parseHex_iff, trimmed_iff.1 ht, ← parseHexPairs_iff (by decide)]
      exact parseHexPairs_zeros 32
    rw [this]
    simp [kindOutcome]
  | @ones t ht hlen hc =>
    have : parseHex KEY_SIZE v = .ok (Arr.replicate KEY_SIZE 0xFF) := by
      rw [parseHex_iff, trimmed_iff.1 ht, ← parseHexPairs_iff (by omega)]
      exact parseHexPairs_ones 32 t hlen hc
    rw [this]
    simp [kindOutcome]
  | key hk =>
    obtain ⟨h1, h2, h3⟩ := keyText_iff.1 hk
    rw [h1]
    simp [kindOutcome, h2, h3]

theorem alike_outcome {v v' : Str} (h : AlikeValue v v') : valueOutcome v = valueOutcome v' := by
  obtain ⟨k, h1, h2⟩ := h
  rw [looks_outcome h1, looks_outcome h2]

/-! ### The entries of `[KEYS]` -/

/-- The entries have the same names, and values about which the same is to be said. -/
def AlikeOpts (l l' : List (Str × Str)) : Prop :=
  l.map (·.1) = l'.map (·.1) ∧ (l.map (·.1)).Nodup ∧ ∀ n v v', (n, v) ∈ l → (n, v') ∈ l' → valueOutcome v = valueOutcome v'

theorem assocGet_isSome_names {κ ν : Type} [DecidableEq κ] {l l' : List (κ × ν)} (h : l.map (·.1) = l'.map (·.1)) (k : κ) :
    (assocGet l k).isSome = (assocGet l' k).isSome := by
  rw [Bool.eq_iff_iff, ← Option.ne_none_iff_isSome, ← Option.ne_none_iff_isSome]
  rw [Ne, Ne, assocGet_none_iff, assocGet_none_iff, h]

theorem assocSet_names {κ ν : Type} [DecidableEq κ] {l l' : List (κ × ν)} (h : l.map (·.1) = l'.map (·.1)) (k : κ) (v v' : ν) :
    (assocSet l k v).map (·.1) = (assocSet l' k v').map (·.1) := by
  unfold assocSet
  rw [List.map_cons, List.map_cons, assocErase_keys, assocErase_keys, h]

theorem keysMsg_alike (T : ConfTexts) : ∀ (l l' : List (Str × Str)) (ks ks' : List (UserId × Key)), ks.map (·.1) = ks'.map (·.1) →
    AlikeOpts l l' → keysMsg T ks l = keysMsg T ks' l'
  | [], [], _, _, _, _ => rfl
  | [], _ :: _, _, _, _, h => by have := h.1; simp at this
  | _ :: _, [], _, _, _, h => by have := h.1; simp at this
  | (n, v) :: l, (n', v') :: l', ks, ks', hks, h => by
    obtain ⟨hn, hd, hv⟩ := h
    simp only [List.map_cons, List.cons.injEq] at hn
    obtain ⟨rfl, hn⟩ := hn
    have hval := hv n v v' (by simp) (by simp)
    have ih := fun ks ks' hks => keysMsg_alike T l l' ks ks' hks ⟨hn, by simp at hd ⊢; exact hd.2,
      fun m a b ha hb => hv m a b (List.mem_cons_of_mem _ ha) (List.mem_cons_of_mem _ hb)⟩
    rw [keysMsg, keysMsg]
    cases parseId n with
    | err => rfl
    | panic => rfl
    | ok id =>
      simp only
      unfold valueOutcome at hval
      cases hp : parseHex KEY_SIZE v with
      | panic => exact absurd hp (parseHex_not_panic _ _)
      | err =>
        rw [hp] at hval
        cases hp' : parseHex KEY_SIZE v' with
        | panic => exact absurd hp' (parseHex_not_panic _ _)
        | ok k => rw [hp'] at hval; simp at hval
        | err =>
          rw [hp'] at hval
          simp only [Prod.mk.injEq, Option.some.injEq, true_and] at hval
          simp only [hval]
      | ok k =>
        rw [hp] at hval
        cases hp' : parseHex KEY_SIZE v' with
        | panic => exact absurd hp' (parseHex_not_panic _ _)
        | err => rw [hp'] at hval; simp at hval
        | ok k' =>
          rw [hp'] at hval
          simp only [Prod.mk.injEq, R.ok.injEq, and_true] at hval
          simp only
          rw [assocGet_isSome_names hks]
          by_cases h1 : k = Arr.replicate KEY_SIZE 0 ∨ k = Arr.replicate KEY_SIZE 0xFF
          · rw [if_pos h1] at hval
            split at hval
            · injection hval with hval
              subst hval
              rcases h1 with h1 | h1
              · rw [if_pos h1, if_pos h1]
              · rw [ih _ _ (assocSet_names hks _ k k)]
            · cases hval
          · rw [if_neg h1] at hval
            split at hval
            · cases hval
            · rename_i h2
              rw [not_or] at h1 h2
              rw [if_neg h1.1, if_neg h1.2, if_neg h2.1, if_neg h2.2, ih _ _ (assocSet_names hks _ k k')]

/-- The order of the iteration depends on the names only: a `HashMap` hashes nothing else. -/
def ByName (order : IterOrder) : Prop := ∀ l l' : List (Str × Str), l.map (·.1) = l'.map (·.1) → (order l).map (·.1) = (order l').map (·.1)

theorem alikeOpts_order {order : IterOrder} (ho : IsOrder order) (hb : ByName order) {l l' : List (Str × Str)} (h : AlikeOpts l l') :
    AlikeOpts (order l) (order l') :=
  ⟨hb _ _ h.1, ((ho l).map (·.1)).nodup_iff.2 h.2.1,
    fun n v v' h1 h2 => h.2.2 n v v' ((ho l).mem_iff.1 h1) ((ho l').mem_iff.1 h2)⟩

/-! ### The parser -/

/-- Two states of the parser that differ in the values of `[KEYS]` only. -/
structure AlikeSects (a b : List (Str × List (Str × Str))) : Prop where
  names : a.map (·.1) = b.map (·.1)
  other : ∀ n, n ≠ "KEYS".toList → assocGet a n = assocGet b n
  keys : ∀ l l', assocGet a "KEYS".toList = some l → assocGet b "KEYS".toList = some l' → AlikeOpts l l'

theorem AlikeSects.isSome {a b : List (Str × List (Str × Str))} (h : AlikeSects a b) (n : Str) :
    (assocGet a n).isSome = (assocGet b n).isSome := assocGet_isSome_names h.names n

theorem AlikeSects.setSame {a b : List (Str × List (Str × Str))} (h : AlikeSects a b) {n : Str} {l l' : List (Str × Str)}
    (hl : n ≠ "KEYS".toList → l = l') (hk : n = "KEYS".toList → AlikeOpts l l') : AlikeSects (assocSet a n l) (assocSet b n l') where
  names := assocSet_names h.names _ _ _
  other m hm := by
    by_cases e : m = n
    · subst e
      rw [assocGet_set_self, assocGet_set_self, hl hm]
    · rw [assocGet_set_ne _ _ e, assocGet_set_ne _ _ e, h.other m hm]
  keys x y hx hy := by
    by_cases e : "KEYS".toList = n
    · rw [← e, assocGet_set_self] at hx hy
      injection hx with hx
      injection hy with hy
      subst hx hy
      exact hk e.symm
    · rw [assocGet_set_ne _ _ e] at hx hy
      exact h.keys x y hx hy

theorem alikeOpts_set {l l' : List (Str × Str)} (h : AlikeOpts l l') {n v v' : Str} (hv : valueOutcome v = valueOutcome v') :
    AlikeOpts (assocSet l n v) (assocSet l' n v') := by
  refine ⟨assocSet_names h.1 _ _ _, assocSet_nodup h.2.1 _ _, ?_⟩
  intro m a b ha hb
  unfold assocSet at ha hb
  rw [List.mem_cons] at ha hb
  rcases ha with ha | ha
  · injection ha with h1 h2
    subst h1 h2
    rcases hb with hb | hb
    · injection hb with _ h2
      subst h2
      exact hv
    · exact absurd rfl (mem_assocErase hb).2
  · rcases hb with hb | hb
    · injection hb with h1 _
      subst h1
      exact absurd rfl (mem_assocErase ha).2
    · exact h.2.2 m a b (mem_assocErase ha).1 (mem_assocErase hb).1

/-- Both succeed with states that are alike, or both fail. -/
def AlikeRes : R IniState → R IniState → Prop
  | .ok st, .ok st' => AlikeSects st.sections st'.sections
  | .err, .err => True
  | .panic, .panic => True
  | _, _ => False

theorem header_section_unique {l n n' : Str} (h : HeaderLine l n) (h' : HeaderLine l n') : n = n' := by
  have e1 := iniLine_header h { sections := [], inSection := none }
  rw [iniLine_header h'] at e1
  simp [assocGet] at e1
  exact e1.2.symm

theorem iniLines_alike {s : Option Str} {ls ls' : List Str} (h : AlikeFrom s ls ls') : ∀ a b, AlikeSects a b →
    AlikeRes (iniLines { sections := a, inSection := s } ls) (iniLines { sections := b, inSection := s } ls') := by
  induction h with
  | nil => exact fun a b h => h
  | @header s l n ls ls' hl _ ih =>
    intro a b hab
    rw [iniLines, iniLines, iniLine_header hl, iniLine_header hl]
    simp only
    rw [← hab.isSome n]
    split
    · trivial
    · exact ih _ _ (hab.setSame (fun _ => rfl) (fun _ => ⟨rfl, by simp, by simp⟩))
  | @same s l ls ls' hl _ ih =>
    intro a b hab
    rw [iniLines, iniLines]
    rcases line_cases l with hi | ⟨n, hh⟩ | ⟨n, v, ha⟩ | he
    · rw [iniLine_ignored hi, iniLine_ignored hi]
      exact ih a b hab
    · exact absurd hh (hl n)
    · rw [iniLine_assign ha, iniLine_assign ha]
      cases s with
      | none => trivial
      | some sect =>
        simp only
        have hs := hab.isSome sect
        cases hg : assocGet a sect with
        | none =>
          rw [hg] at hs
          cases hg' : assocGet b sect with
          | none => trivial
          | some _ => rw [hg'] at hs; simp at hs
        | some o =>
          rw [hg] at hs
          cases hg' : assocGet b sect with
          | none => rw [hg'] at hs; simp at hs
          | some o' =>
            refine ih _ _ (hab.setSame (fun hne => ?_) (fun he => ?_))
            · rw [hab.other sect hne, hg'] at hg
              injection hg with hg
              rw [hg]
            · subst he
              exact alikeOpts_set (hab.keys _ _ hg hg') rfl
    · rw [he, he]
      trivial
  | @key l l' n v v' ls ls' ha ha' hv _ ih =>
    intro a b hab
    rw [iniLines, iniLines, iniLine_assign ha, iniLine_assign ha']
    simp only
    have hs := hab.isSome "KEYS".toList
    cases hg : assocGet a "KEYS".toList with
    | none =>
      rw [hg] at hs
      cases hg' : assocGet b "KEYS".toList with
      | none => trivial
      | some _ => rw [hg'] at hs; simp at hs
    | some o =>
      rw [hg] at hs
      cases hg' : assocGet b "KEYS".toList with
      | none => rw [hg'] at hs; simp at hs
      | some o' =>
        exact ih _ _ (hab.setSame (fun hne => absurd rfl hne) (fun _ => alikeOpts_set (hab.keys _ _ hg hg') (alike_outcome hv)))
  | @bad s l l' ls ls' hb =>
    intro a b _
    have key : ∀ x ∈ [l, l'], ∀ st, iniLine st x = .err := by
      intro x hx
      obtain ⟨h1, h2, h3⟩ := hb x hx
      rcases line_cases x with hi | ⟨n, hh⟩ | ⟨n, v, ha⟩ | he
      · exact absurd hi h1
      · exact absurd hh (h2 n)
      · exact absurd ha (h3 n v)
      · exact he
    rw [iniLines, iniLines, key l (by simp), key l' (by simp)]
    trivial

/-! ### Loading -/

theorem get_alike {i i' : Ini} (h : AlikeSects i.sections i'.sections) {sect : Str} (hs : sect ≠ "KEYS".toList) (opt : Str) :
    i.get sect opt = i'.get sect opt := by
  unfold Ini.get
  rw [h.other _ hs]

theorem valuesMsg_alike (T : ConfTexts) (f64 : F64Secs) {order : IterOrder} (ho : IsOrder order) (hb : ByName order) (c : Config) {i i' : Ini}
    (h : AlikeSects i.sections i'.sections) : c.valuesMsg T f64 order i = c.valuesMsg T f64 order i' := by
  have hk : getKeysMsg T ((i.optionsIter "KEYS".toList).map order) = getKeysMsg T ((i'.optionsIter "KEYS".toList).map order) := by
    unfold Ini.optionsIter
    have hs := h.isSome "KEYS".toList
    cases hg : assocGet i.sections "KEYS".toList with
    | none =>
      rw [hg] at hs
      cases hg' : assocGet i'.sections "KEYS".toList with
      | none => rfl
      | some _ => rw [hg'] at hs; simp at hs
    | some o =>
      rw [hg] at hs
      cases hg' : assocGet i'.sections "KEYS".toList with
      | none => rw [hg'] at hs; simp at hs
      | some o' => exact keysMsg_alike T _ _ [] [] rfl (alikeOpts_order ho hb (h.keys _ _ hg hg'))
  have hr : i.optionsIter "RESOURCES".toList = i'.optionsIter "RESOURCES".toList := h.other _ (by decide)
  have G := get_alike h (sect := "GENERAL".toList) (by decide)
  have C := get_alike h (sect := "CLIENT".toList) (by decide)
  have N := get_alike h (sect := "NFTABLES".toList) (by decide)
  unfold Config.valuesMsg
  rw [hk, hr]
  unfold getDebug getPort getControlTimeout getControlErrorPolicy getSeccomp getDefaultUser getNftExe getNftFamily getNftTable
    getNftChainInput getNftTimeout optionMsg getOpt
  simp only [G, C, N]

theorem loadMsg_alike (T : ConfTexts) (f64 : F64Secs) {order : IterOrder} (ho : IsOrder order) (hb : ByName order) (c : Config) {s s' : Str}
    (h : AlikeFiles s s') : c.loadMsg T f64 order (.text s) = c.loadMsg T f64 order (.text s') := by
  obtain ⟨ls, ls', h1, h2, h3⟩ := h
  have hr := iniLines_alike h3 [] [] ⟨rfl, fun _ _ => rfl, fun _ _ h => by simp [assocGet] at h⟩
  unfold Config.loadMsg
  rw [show Ini.newFromFile (.text s) = Ini.parseStr s from rfl, show Ini.newFromFile (.text s') = Ini.parseStr s' from rfl]
  unfold Ini.parseStr
  rw [textLines_lines h1, textLines_lines h2]
  revert hr
  cases iniLines { sections := [], inSection := none } ls <;> cases iniLines { sections := [], inSection := none } ls' <;> intro hr
  case ok.ok a b => exact valuesMsg_alike T f64 ho hb c hr
  case err.err => rfl
  case panic.panic => rfl
  all_goals exact hr.elim

/-! ### A message is printed exactly if the program does not load the configuration -/

theorem keysMsg_none (T : ConfTexts) : ∀ (l : List (Str × Str)) (ks : List (UserId × Key)),
    keysMsg T ks l = none ↔ ∃ ks', keysFrom ks l = .ok ks'
  | [], ks => by simp [keysMsg, keysFrom]
  | (n, v) :: l, ks => by
    rw [keysMsg, keysFrom]
    cases parseId n with
    | err => simp
    | panic => simp
    | ok id =>
      simp only [R.bind_ok]
      cases parseHex KEY_SIZE v with
      | err => simp
      | panic => simp
      | ok k =>
        simp only [R.bind_ok]
        by_cases h1 : k = Arr.replicate KEY_SIZE 0
        · simp [h1, rensure]
        · by_cases h2 : k = Arr.replicate KEY_SIZE 0xFF
          · rw [if_neg h1, if_pos h2]
            have : rensure (decide (k ≠ Arr.replicate KEY_SIZE 0xFF)) = (.err : R Unit) := by simp [h2, rensure]
            rw [this]
            have : rensure (decide (k ≠ Arr.replicate KEY_SIZE 0)) = (.ok () : R Unit) := by simp [h1, rensure]
            rw [this]
            simp
          · rw [if_neg h1, if_neg h2]
            by_cases h3 : (assocGet ks (⟨id⟩ : UserId)).isSome
            · rw [if_pos h3]
              have : (assocGet ks (⟨id⟩ : UserId)).isNone = false := by simpa using h3
              simp [h1, h2, this, rensure]
            · rw [if_neg h3, keysMsg_none T l]
              have : (assocGet ks (⟨id⟩ : UserId)).isNone = true := by simpa using h3
              simp [h1, h2, this, rensure]

theorem step_msg {α β : Type} {m rest : Option ErrChain} {r : R α} {f : α → R β} (h1 : m = none ↔ ∃ a, r = .ok a)
    (h2 : ∀ a, r = .ok a → (rest = none ↔ ∃ b, f a = .ok b)) : m.or rest = none ↔ ∃ b, (r >>= f) = .ok b := by
  rw [Option.or_eq_none_iff]
  constructor
  · rintro ⟨hm, hr⟩
    obtain ⟨a, ha⟩ := h1.1 hm
    obtain ⟨b, hb⟩ := (h2 a ha).1 hr
    exact ⟨b, by rw [ha, R.bind_ok, hb]⟩
  · rintro ⟨b, hb⟩
    obtain ⟨a, ha, hf⟩ := R.bind_eq_ok.1 hb
    exact ⟨h1.2 ⟨a, ha⟩, (h2 a ha).2 ⟨b, hf⟩⟩

theorem last_msg {α β : Type} {m : Option ErrChain} {r : R α} {f : α → R β} (h1 : m = none ↔ ∃ a, r = .ok a)
    (h2 : ∀ a, ∃ b, f a = .ok b) : m = none ↔ ∃ b, (r >>= f) = .ok b := by
  have := step_msg (rest := none) h1 (f := f) (fun a _ => by simp [h2 a])
  simpa using this

theorem optionMsg_none {α : Type} {T : ConfTexts} {ini : Ini} {sect opt : String} {r : R α} (h : r ≠ .panic) :
    optionMsg T ini sect opt r = none ↔ ∃ a, r = .ok a := by
  cases r with
  | ok a => simp [optionMsg]
  | err => simp [optionMsg]
  | panic => exact absurd rfl h

theorem onlyFor_not_panic {α : Type} {w v : ConfigVariant} {x : R α} {d : α} (h : x ≠ .panic) : onlyFor w v x d ≠ .panic := by
  unfold onlyFor
  split
  · exact h
  · simp

theorem valuesMsg_none (T : ConfTexts) (f64 : F64Secs) (order : IterOrder) (c : Config) (ini : Ini) :
    c.valuesMsg T f64 order ini = none ↔ ∃ c', c.values f64 order ini = .ok c' := by
  unfold Config.valuesMsg Config.values
  refine step_msg (optionMsg_none (getOpt_not_panic parseBool_not_panic)) fun _ _ =>
    step_msg (optionMsg_none (getOpt_not_panic parsePort_not_panic)) fun _ _ =>
    step_msg (optionMsg_none (getOpt_not_panic (parseDuration_not_panic f64))) fun _ _ =>
    step_msg (optionMsg_none (getOpt_not_panic errorPolicy_not_panic)) fun _ _ =>
    step_msg (optionMsg_none (getOpt_not_panic seccomp_not_panic)) fun _ _ =>
    step_msg ?_ fun _ _ => step_msg ?_ fun _ _ =>
    step_msg (optionMsg_none (onlyFor_not_panic (getOpt_not_panic fun s => R.bind_not_panic (parseId_not_panic s) (by simp)))) fun _ _ =>
    step_msg (optionMsg_none (onlyFor_not_panic (getOpt_not_panic (by simp)))) fun _ _ =>
    step_msg (optionMsg_none (onlyFor_not_panic (getOpt_not_panic fun s => ?_))) fun _ _ =>
    step_msg (optionMsg_none (onlyFor_not_panic (getOpt_not_panic (by simp)))) fun _ _ =>
    step_msg (optionMsg_none (onlyFor_not_panic (getOpt_not_panic (by simp)))) fun _ _ =>
    last_msg (optionMsg_none (onlyFor_not_panic (getOpt_not_panic (parseDuration_not_panic f64)))) fun _ => ⟨_, rfl⟩
  · unfold getKeysMsg getKeys
    cases (ini.optionsIter "KEYS".toList).map order with
    | none => simp
    | some l => exact keysMsg_none T l []
  · have hp : getResources ((ini.optionsIter "RESOURCES".toList).map order) ≠ .panic := by
      unfold getResources; split
      · exact resourcesFrom_not_panic _ _
      · simp
    unfold resourcesMsg
    revert hp
    cases getResources ((ini.optionsIter "RESOURCES".toList).map order) <;> simp
  · split <;> simp

theorem loadMsg_none (T : ConfTexts) (f64 : F64Secs) (order : IterOrder) (c : Config) (path : Str) (file : FileContent) :
    c.loadMsg T f64 order file = none ↔ (c.load f64 order path file).1 = .ok () := by
  have hnp : Ini.newFromFile file ≠ .panic := by
    unfold Ini.newFromFile
    split
    · unfold Ini.parseStr
      exact R.bind_not_panic (iniLines_not_panic (by simp)) (by simp)
    · simp
  unfold Config.loadMsg Config.load
  cases hf : Ini.newFromFile file with
  | panic => exact absurd hf hnp
  | err => by_cases hv : c.variant = .Server <;> simp [hv]
  | ok ini =>
    simp only
    rw [valuesMsg_none]
    unfold Config.loadIni
    cases c.values f64 order ini <;> simp

/-! ### The claims -/

theorem looks_total (v : Str) : ∃ k, KeyLooks v k := by
  have ht := trim_spec v
  by_cases h1 : ∃ c ∈ trim v, 128 ≤ c.toNat
  · obtain ⟨c, hc, h⟩ := h1
    exact ⟨_, .foreign ht hc h⟩
  have hall : ∀ c ∈ trim v, c.toNat < 128 := by
    intro c hc
    have : ¬ 128 ≤ c.toNat := fun h => h1 ⟨c, hc, h⟩
    omega
  by_cases h2 : (trim v).length = 64
  · cases hp : parseHex KEY_SIZE v with
    | panic => exact absurd hp (parseHex_not_panic _ _)
    | ok k =>
      by_cases hz : k = Arr.replicate KEY_SIZE 0
      · refine ⟨_, .zeros ?_⟩
        have hx := parseHex_iff.1 hp
        rw [hz] at hx
        have hzero : ∀ {t : Str} {bs : Bytes}, HexPairs t bs → (∀ b ∈ bs, b = 0) → ∀ c ∈ t, c = '0' := by
          intro t bs hh
          induction hh with
          | nil => simp
          | @cons a b x y s bs ha hb _ ih =>
            intro hbs c hc
            have h0 := congrArg UInt8.toNat (hbs _ List.mem_cons_self)
            have hx := ha.1
            have hy := hb.1
            simp only [UInt8.toNat_ofNat', UInt8.toNat_zero] at h0
            have hx0 : x = 0 := by omega
            have hy0 : y = 0 := by omega
            subst hx0 hy0
            simp only [List.mem_cons] at hc
            rcases hc with rfl | rfl | hc
            · rcases ha.2 with h | h <;> simpa using h.symm
            · rcases hb.2 with h | h <;> simpa using h.symm
            · exact ih (fun b hb => hbs b (by simp [hb])) c hc
        have : trim v = List.replicate 64 '0' := by
          rw [← h2]
          exact List.eq_replicate_of_mem (hzero hx (by simp [Arr.replicate]))
        rw [← this]
        exact ht
      · by_cases ho : k = Arr.replicate KEY_SIZE 0xFF
        · refine ⟨_, .ones ht h2 ?_⟩
          have hx := parseHex_iff.1 hp
          rw [ho] at hx
          have hone : ∀ {t : Str} {bs : Bytes}, HexPairs t bs → (∀ b ∈ bs, b = 0xFF) → ∀ c ∈ t, c = 'F' ∨ c = 'f' := by
            intro t bs hh
            induction hh with
            | nil => simp
            | @cons a b x y s bs ha hb _ ih =>
              intro hbs c hc
              have h0 := congrArg UInt8.toNat (hbs _ List.mem_cons_self)
              have hx := ha.1
              have hy := hb.1
              rw [UInt8.toNat_ofNat', show (0xFF : UInt8).toNat = 255 from rfl] at h0
              have hx0 : x = 15 := by omega
              have hy0 : y = 15 := by omega
              subst hx0 hy0
              simp only [List.mem_cons] at hc
              rcases hc with rfl | rfl | hc
              · rcases ha.2 with h | h
                · right; simpa using h.symm
                · left; simpa using h.symm
              · rcases hb.2 with h | h
                · right; simpa using h.symm
                · left; simpa using h.symm
              · exact ih (fun b hb => hbs b (by simp [hb])) c hc
          exact hone hx (by simp [Arr.replicate])
        · exact ⟨_, .key (keyText_iff.2 ⟨hp, hz, ho⟩)⟩
    | err =>
      by_cases h3 : ∃ c ∈ trim v, ∀ d, ¬ IsDigit 16 c d
      · obtain ⟨c, hc, hd⟩ := h3
        exact ⟨_, .noDigit ht hall h2 hc hd⟩
      · exfalso
        have hdig : ∀ c ∈ trim v, ∃ d, IsDigit 16 c d := by
          intro c hc
          exact Classical.byContradiction fun h => h3 ⟨c, hc, fun d hd => h ⟨d, hd⟩⟩
        have hpairs : ∀ (n : Nat) (t : Str), t.length = 2 * n → (∀ c ∈ t, ∃ d, IsDigit 16 c d) → ∃ bs, bs.length = n ∧ HexPairs t bs := by
          intro n
          induction n with
          | zero =>
            intro t h _
            have : t = [] := List.length_eq_zero_iff.1 (by omega)
            rw [this]
            exact ⟨[], rfl, .nil⟩
          | succ n ih =>
            intro t h hd
            match t, h, hd with
            | a :: b :: t, h, hd =>
              obtain ⟨bs, hl, hb⟩ := ih t (by simp at h; omega) (fun c hc => hd c (by simp [hc]))
              obtain ⟨x, hx⟩ := hd a (by simp)
              obtain ⟨y, hy⟩ := hd b (by simp)
              exact ⟨_, by simp [hl], .cons hx hy hb⟩
            | [], h, _ => simp at h
            | [_], h, _ => simp at h; omega
        obtain ⟨bs, hl, hb⟩ := hpairs 32 _ h2 hdig
        have : parseHex KEY_SIZE v = .ok ⟨bs, hl⟩ := parseHex_iff.2 hb
        rw [hp] at this
        cases this
  · exact ⟨_, .length ht hall h2⟩

/-- Whatever the texts about the other sections are, what one of the programs prints about its configuration does not depend on the keys:
it is the same for two files that differ only in the keys and in lines that are not `.ini` lines at all. -/
theorem C115_keys_not_printed (T : ConfTexts) (f64 : F64Secs) {order : IterOrder} (ho : IsOrder order) (hb : ByName order) (c : Config)
    {s s' : Str} (h : AlikeFiles s s') : configFileMsg T f64 order c (.text s) = configFileMsg T f64 order c (.text s') := by
  unfold configFileMsg
  rw [loadMsg_alike T f64 ho hb c h]

/-- Two files with different keys and the same mistake, one of them with a broken line that contains a key. -/
def msgFile (port key last : String) : Str := ("[GENERAL]\nport = " ++ port ++ "\n[KEYS]\n00000001 = " ++ key ++ "\n" ++ last ++ "\n").toList
def msgKeyA : String := "000102030405060708090A0B0C0D0E0F101112131415161718191A1B1C1D1E1F"
def msgKeyB : String := "FFEEDDCCBBAA99887766554433221100FFEEDDCCBBAA99887766554433221100"
def msgTexts : ConfTexts where
  option s o v := [s.toList ++ ' ' :: o.toList, v]
  resources _ := ["RESOURCES".toList]
  ident n := n
  path := "\"/etc/letmeind.conf\"".toList

theorem byName_id : ByName id := fun _ _ h => h
theorem byName_reverse : ByName List.reverse := fun _ _ h => by rw [List.map_reverse, List.map_reverse, h]

theorem looks_of_parse {v : Str} {k : Key} (h : parseHex KEY_SIZE v = .ok k) (h0 : k ≠ Arr.replicate KEY_SIZE 0)
    (h1 : k ≠ Arr.replicate KEY_SIZE 0xFF) : KeyLooks v .key := .key (keyText_iff.2 ⟨h, h0, h1⟩)

def lineErr (r : R IniState) : Bool := match r with | .err => true | _ => false
theorem lineErr_iff {r : R IniState} (h : lineErr r = true) : r = .err := by cases r <;> simp_all [lineErr]

theorem noHeader_of {x : Str} (h : lineErr (iniLine { sections := [], inSection := none } x) = true) : ∀ n, ¬ HeaderLine x n := by
  intro n hn
  have h := lineErr_iff h
  rw [iniLine_header hn] at h
  simp [assocGet] at h

theorem badLine_of {x : Str} (ha : lineErr (iniLine { sections := [("A".toList, [])], inSection := some "A".toList } x) = true)
    (hb : lineErr (iniLine { sections := [("B".toList, [])], inSection := some "B".toList } x) = true) :
    ¬ IgnoredLine x ∧ (∀ n, ¬ HeaderLine x n) ∧ ∀ n v, ¬ AssignLine x n v := by
  have ha := lineErr_iff ha
  have hb := lineErr_iff hb
  refine ⟨fun h => ?_, fun n h => ?_, fun n v h => ?_⟩
  · rw [iniLine_ignored h] at ha; cases ha
  · rw [iniLine_header h] at ha hb
    simp [assocGet] at ha hb
    rw [← ha] at hb
    exact absurd hb (by decide)
  · rw [iniLine_assign h] at ha
    simp [assocGet] at ha

theorem assign_key (k : Str) : AssignLine ("00000001 =".toList ++ k) "00000001".toList k :=
  ⟨[], [' '], by simp, by simp [Blank], by simp [Blank, isWhitespace], by decide, ⟨'0', by decide, by decide, by decide, by decide⟩, '1', by decide, by decide⟩

theorem msg_alike : AlikeFiles (msgFile "tcp" msgKeyA ("00000002 : " ++ msgKeyA)) (msgFile "tcp" msgKeyB ("= " ++ msgKeyB)) := by
  refine ⟨["[GENERAL]".toList, "port = tcp".toList, "[KEYS]".toList, "00000001 =".toList ++ (" " ++ msgKeyA).toList,
      ("00000002 : " ++ msgKeyA).toList],
    ["[GENERAL]".toList, "port = tcp".toList, "[KEYS]".toList, "00000001 =".toList ++ (" " ++ msgKeyB).toList, ("= " ++ msgKeyB).toList],
    textLines_iff.2 (by decide +kernel), textLines_iff.2 (by decide +kernel), ?_⟩
  refine .header (n := "GENERAL".toList) ⟨[], [], by decide, by simp [Blank], by simp [Blank], by decide⟩ ?_
  refine .same (noHeader_of (by decide +kernel)) ?_
  refine .header (n := "KEYS".toList) ⟨[], [], by decide, by simp [Blank], by simp [Blank], by decide⟩ ?_
  refine .key (assign_key _) (assign_key _) ?_ (.bad ?_)
  · have ha : ∃ k, parseHex KEY_SIZE (" " ++ msgKeyA).toList = .ok k ∧ k ≠ Arr.replicate KEY_SIZE 0 ∧ k ≠ Arr.replicate KEY_SIZE 0xFF :=
      ⟨⟨(List.range 32).map UInt8.ofNat, by decide⟩, by decide +kernel⟩
    have hb : ∃ k, parseHex KEY_SIZE (" " ++ msgKeyB).toList = .ok k ∧ k ≠ Arr.replicate KEY_SIZE 0 ∧ k ≠ Arr.replicate KEY_SIZE 0xFF :=
      ⟨⟨(List.range 32).map (fun i => UInt8.ofNat (17 * (15 - i % 16))), by decide⟩, by decide +kernel⟩
    obtain ⟨k, h1, h2, h3⟩ := ha
    obtain ⟨k', h1', h2', h3'⟩ := hb
    exact ⟨_, looks_of_parse h1 h2 h3, looks_of_parse h1' h2' h3'⟩
  · intro x hx
    simp only [List.mem_cons, List.not_mem_nil, or_false] at hx
    rcases hx with rfl | rfl <;> exact badLine_of (by decide +kernel) (by decide +kernel)

example : configFileMsg msgTexts (fun _ => none) List.reverse (Config.new .Server) (.text (msgFile "tcp" msgKeyA ("00000002 : " ++ msgKeyA))) =
    configFileMsg msgTexts (fun _ => none) List.reverse (Config.new .Server) (.text (msgFile "tcp" msgKeyB ("= " ++ msgKeyB))) :=
  C115_keys_not_printed msgTexts (fun _ => none) reverse_order byName_reverse _ msg_alike

example : configFileMsg msgTexts (fun _ => none) id (Config.new .Server) (.text (msgFile "tcp" msgKeyA ("00000002 : " ++ msgKeyA))) =
    some ["Configuration file".toList, "Failed to load configuration \"/etc/letmeind.conf\"".toList] := by decide +kernel

example : configFileMsg msgTexts (fun _ => none) id (Config.new .Server) (.text (msgFile "tcp" msgKeyA ("00000002 = " ++ msgKeyB ++ "0"))) =
    some ["Configuration file".toList, "[KEYS]".toList, "Hex string is too short: Expected 64, got 65 chars".toList] := by decide +kernel

example : configFileMsg msgTexts (fun _ => none) id (Config.new .Server) (.text (msgFile "tcp" msgKeyA ("1 = " ++ msgKeyB))) =
    some ["Configuration file".toList, "[KEYS] Multiple definitions of key '00000001'".toList] := by decide +kernel

example : configFileMsg msgTexts (fun _ => none) id (Config.new .Client) (.text (msgFile "tcp" msgKeyA ("2 : " ++ msgKeyB))) = none := by
  decide +kernel

/-- Something is printed exactly if the configuration is not loaded. -/
theorem C115_printed_iff (T : ConfTexts) (f64 : F64Secs) (order : IterOrder) (c : Config) (path : Str) (file : FileContent) :
    configFileMsg T f64 order c file = none ↔ (c.load f64 order path file).1 = .ok () := by
  unfold configFileMsg
  rw [Option.map_eq_none_iff]
  exact loadMsg_none T f64 order c path file

example : ((Config.new .Server).load (fun _ => none) id "/etc/letmeind.conf".toList (.text (msgFile "tcp, 1" msgKeyA ""))).1 ≠ .ok () := by
  intro h
  exact absurd ((C115_printed_iff msgTexts _ _ _ _ _).2 h) (by decide +kernel)

/-- Every value is of one of the kinds, and the keys that are accepted are of one and the same kind: a message does not tell one of them
from another. -/
theorem C115_kinds (v : Str) : (∃ k, KeyLooks v k) ∧ (KeyLooks v .key ↔ ∃ k : Key, KeyText v k) :=
  ⟨looks_total v, ⟨fun h => by cases h with | key hk => exact ⟨_, hk⟩, fun ⟨_, hk⟩ => .key hk⟩⟩

example : (∃ k, KeyLooks msgKeyA.toList k) ∧ (KeyLooks msgKeyA.toList .key ↔ ∃ k : Key, KeyText msgKeyA.toList k) := C115_kinds _

end Letmein.Props
