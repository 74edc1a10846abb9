import Verif.Lemmas.ConfShow
import Verif.Props.Conf

/-!
# Properties C39, C42: printed identifiers and keys
-/

namespace Letmein.Props

open Letmein Prog Spec

/-! ## C42: identifiers -/

/-- C42: what is printed is parsed as the same identifier. -/
theorem C42_print_parse (x : UInt32) : parseId (showId x) = .ok x := parseId_iff.2 (showId_text x)

/-- C42: what is printed has 8 hexadecimal digits. -/
theorem C42_printed_form (x : UInt32) : (showId x).length = 8 ∧ ∀ c ∈ showId x, c ∈ "0123456789ABCDEF".toList :=
  ⟨showId_length x, fun _ h => mem_showId h⟩

/-- C42: exactly the hexadecimal numbers with white space around are parsed, with their value. -/
theorem C42_parse_iff (s : Str) (x : UInt32) : parseId s = .ok x ↔ IdText s x := parseId_iff

/-- C42: values above 0xFFFFFFFF are rejected. -/
theorem C42_rejects_large {s t : Str} {n : Nat} (h1 : Trimmed s t) (h2 : Number 16 t n) (h3 : 2 ^ 32 ≤ n) : parseId s = .err := by
  cases h : parseId s with
  | err => rfl
  | panic => exact absurd h (parseId_not_panic s)
  | ok x =>
    exfalso
    obtain ⟨t', h4, h5⟩ := parseId_iff.1 h
    have : t' = t := by rw [trimmed_iff] at h1 h4; rw [← h1, ← h4]
    subst this
    have := numeral_unique (by decide) h2 h5
    have := x.toNat_lt
    omega

/-- C42: case does not matter. -/
theorem C42_case_insensitive {s t : Str} (h : EqIgnoreCase s t) : parseId s = parseId t := by
  rw [← parseId_lower s, ← parseId_lower t, eqIgnoreCase_lower h]

example : showId 0xAB = "000000AB".toList ∧ parseId " aB\t".toList = .ok 0xAB ∧ parseId "+1".toList = .ok 1 ∧ parseId "100000000".toList = .err ∧
    parseId "".toList = .err ∧ parseId "0x1".toList = .err := by decide +kernel

/-! ## C39: the output of gen-key -/

/-- C39: the printed line is an assignment of exactly this key to exactly this user, for every key the generator returns. -/
theorem C39_line_is_entry {raw : Option (Arr KEY_SIZE)} {key : Key} (hk : secureRandom KEY_SIZE raw = .ok key) {conf : Config} {user : Option UserId}
    {u : UserId} (hu : user = some u ∨ (user = none ∧ conf.defaultUser = u)) :
    ∃ name value, AssignLine (genkeyLine conf user key) name value ∧ IdText name u.raw ∧ KeyText value key := by
  have e : user.getD conf.defaultUser = u := by
    rcases hu with rfl | ⟨rfl, h⟩
    · rfl
    · exact h
  have hlen := showId_length u.raw
  have hne : showId u.raw ≠ [] := by intro h; rw [h] at hlen; cases hlen
  refine ⟨showId u.raw, ' ' :: (key.val.map showHexByte).flatten, ?_, showId_text _, ?_⟩
  · refine ⟨[], [' '], ?_, by simp [Blank], by simp [Blank, isWhitespace], ?_, ?_, ?_⟩
    · unfold genkeyLine
      rw [e]
      simp
    · intro h; exact (hex_char (mem_showId h)).2.2.2.1 rfl
    · cases h : (showId u.raw).head? with
      | none => simp at h; exact absurd h hne
      | some c =>
        have := hex_char (mem_showId (List.mem_of_mem_head? h))
        exact ⟨c, rfl, this.1, this.2.1, this.2.2.1⟩
    · cases h : (showId u.raw).getLast? with
      | none => simp at h; exact absurd h hne
      | some c =>
        have := hex_char (mem_showId (List.mem_of_mem_getLast? h))
        exact ⟨c, rfl, this.1⟩
  · have hb : ∀ b : UInt8, (b = 0x00 ∨ b = 0xFF) → ∃ x ∈ key.val, x ≠ b := by
      intro b hb
      cases raw with
      | none =>
        unfold secureRandom at hk
        rw [R.bind_eq_ok] at hk
        obtain ⟨_, -, hk⟩ := hk
        cases hk
      | some buf =>
        have hkb : key = buf ∧ buf ≠ Arr.replicate KEY_SIZE 0 ∧ buf ≠ Arr.replicate KEY_SIZE 0xFF := by
          unfold secureRandom at hk
          rw [R.bind_eq_ok] at hk
          obtain ⟨_, -, hk⟩ := hk
          simp only at hk
          rw [R.bind_eq_ok] at hk
          obtain ⟨_, h1, hk⟩ := hk
          rw [R.bind_eq_ok] at hk
          obtain ⟨_, h2, hk⟩ := hk
          rw [rassert_eq_ok] at h1 h2
          refine ⟨?_, by simpa using h1, by simpa using h2⟩
          split at hk
          · cases hk
          · rw [R.bind_eq_ok] at hk
            obtain ⟨_, -, hk⟩ := hk
            injection hk with hk
            exact hk.symm
        obtain ⟨rfl, h1, h2⟩ := hkb
        apply Classical.byContradiction
        intro hno
        have hall : ∀ x ∈ key.val, x = b := by
          intro x hx
          apply Classical.byContradiction
          intro hxb; exact hno ⟨x, hx, hxb⟩
        have hval : key.val = List.replicate KEY_SIZE b := by
          rw [List.eq_replicate_iff]; exact ⟨key.property, hall⟩
        rcases hb with rfl | rfl
        · exact h1 (Subtype.ext hval)
        · exact h2 (Subtype.ext hval)
    refine ⟨⟨(key.val.map showHexByte).flatten, ?_, hexPairs_show _⟩, hb _ (.inl rfl), hb _ (.inr rfl)⟩
    have h := trimmed_self (s := (key.val.map showHexByte).flatten) (fun c hc => (hex_char (mem_showKey hc)).1)
    refine ⟨⟨[' '], [], by simp, by simp [isWhitespace], by simp⟩, h.first, h.last⟩

/-- C39: put under `[KEYS]` in a file that has no key of this user yet, the line is loaded as exactly this user with exactly this key,
and nothing else changes. -/
theorem C39_line_is_loaded {f64 : F64Secs} {order : IterOrder} (ho : IsOrder order) {raw : Option (Arr KEY_SIZE)} {key : Key}
    (hk : secureRandom KEY_SIZE raw = .ok key) {conf : Config} {user : Option UserId} {u : UserId}
    (hu : user = some u ∨ (user = none ∧ conf.defaultUser = u)) {c c' : Config} {path : Str} {s s' : Str} {a b : List Str} {h : Str}
    (hh : HeaderLine h "KEYS".toList) (hs : TextLines s (a ++ h :: b)) (hs' : TextLines s' (a ++ h :: genkeyLine conf user key :: b))
    (hd : ∃ d, FileDoc (.text s) d) (hl : c.load f64 order path (.text s) = (.ok (), c')) (hnew : c'.key u = none) :
    ∃ c'', c.load f64 order path (.text s') = (.ok (), c'') ∧ SameConf c'' { c' with keys := (u, key) :: c'.keys } := by
  obtain ⟨d, hd⟩ := hd
  obtain ⟨hc, hv, -⟩ := C54_loaded_is_described ho hd hl
  obtain ⟨s0, e, ls, h1, h2, h3⟩ := hd
  injection e with e
  subst e
  have : ls = a ++ h :: b := by rw [textLines_iff] at h1 hs; rw [← h1, ← hs]
  obtain ⟨name, value, hal, hname, hvalue⟩ := C39_line_is_entry hk hu
  obtain ⟨d1, as, d2, rfl, h5⟩ := docLines_insert h2 hh hal this
  have hnm : (d1 ++ ("KEYS".toList, (name, value) :: as) :: d2).map (·.1) = (d1 ++ ("KEYS".toList, as) :: d2).map (·.1) := by simp
  have hmem : ("KEYS".toList, as) ∈ d1 ++ ("KEYS".toList, as) :: d2 := by simp
  have hmem' : ("KEYS".toList, (name, value) :: as) ∈ d1 ++ ("KEYS".toList, (name, value) :: as) :: d2 := by simp
  have hother : ∀ n as', n ≠ "KEYS".toList → ((n, as') ∈ d1 ++ ("KEYS".toList, (name, value) :: as) :: d2 ↔ (n, as') ∈ d1 ++ ("KEYS".toList, as) :: d2) := by
    intro n as' hn
    simp only [List.mem_append, List.mem_cons, Prod.mk.injEq, hn, false_and, false_or]
  have hown : ∀ d0 : Doc, (d0.map (·.1)).Nodup → ∀ as0 as', ("KEYS".toList, as0) ∈ d0 → ("KEYS".toList, as') ∈ d0 → as' = as0 := by
    intro d0 hn as0 as' h6 h7
    have e1 := assocGet_of_mem hn h6
    have e2 := assocGet_of_mem hn h7
    rw [e1] at e2; injection e2 with e2; exact e2.symm
  -- the user has no entry
  have hfresh : ∀ n v, Setting (d1 ++ ("KEYS".toList, as) :: d2) "KEYS".toList n v → ¬ IdText n u.raw := by
    intro n v hset hid
    obtain ⟨x, k, hx, hkt⟩ := hc.keys.valid n v hset
    have := idText_unique hx hid
    subst this
    have := (hc.keys.keys u k).2 ⟨n, v, hset, hid, hkt⟩
    rw [hnew] at this; cases this
  have hno : ∀ e ∈ as, e.1 ≠ name := by
    intro e he hen
    obtain ⟨v, hlv⟩ := lastValue_exists he
    rw [hen] at hlv
    exact hfresh name v ⟨as, hmem, hlv⟩ hname
  have hset : ∀ n o v, n ≠ "KEYS".toList → (Setting (d1 ++ ("KEYS".toList, (name, value) :: as) :: d2) n o v ↔ Setting (d1 ++ ("KEYS".toList, as) :: d2) n o v) := by
    intro n o v hn
    unfold Setting
    simp only [hother n _ hn]
  have hsetK : ∀ o v, Setting (d1 ++ ("KEYS".toList, (name, value) :: as) :: d2) "KEYS".toList o v ↔
      Setting (d1 ++ ("KEYS".toList, as) :: d2) "KEYS".toList o v ∨ (o = name ∧ v = value) := by
    intro o v
    constructor
    · rintro ⟨as', h6, h7⟩
      have := hown _ (by rw [hnm]; exact h3) _ _ hmem' h6
      subst this
      rw [lastValue_cons hno] at h7
      rcases h7 with h7 | h7
      · exact .inl ⟨as, hmem, h7⟩
      · exact .inr h7
    · rintro (⟨as', h6, h7⟩ | ⟨rfl, rfl⟩)
      · have := hown _ h3 _ _ hmem h6
        subst this
        exact ⟨_, hmem', (lastValue_cons hno).2 (.inl h7)⟩
      · exact ⟨_, hmem', (lastValue_cons hno).2 (.inr ⟨rfl, rfl⟩)⟩
  -- the new configuration
  have giv : ∀ {α : Type} {sect opt : String} {P : Str → α → Prop} {dflt x : α}, sect.toList ≠ "KEYS".toList →
      Given (d1 ++ ("KEYS".toList, as) :: d2) sect opt P dflt x → Given (d1 ++ ("KEYS".toList, (name, value) :: as) :: d2) sect opt P dflt x := by
    intro α sect opt P dflt x hn hg
    rcases hg with ⟨v, h6, h7⟩ | ⟨h6, h7⟩
    · exact .inl ⟨v, (hset _ _ _ hn).2 h6, h7⟩
    · exact .inr ⟨fun ⟨v, hv⟩ => h6 ⟨v, (hset _ _ _ hn).1 hv⟩, h7⟩
  have givIf : ∀ {α : Type} {sect opt : String} {P : Str → α → Prop} {dflt dflt' x : α} {w : ConfigVariant}, sect.toList ≠ "KEYS".toList →
      (if c'.variant = w then Given (d1 ++ ("KEYS".toList, as) :: d2) sect opt P dflt x else x = dflt') →
      (if c'.variant = w then Given (d1 ++ ("KEYS".toList, (name, value) :: as) :: d2) sect opt P dflt x else x = dflt') := by
    intro α sect opt P dflt dflt' x w hn hg
    split at hg <;> rename_i hw
    · rw [if_pos hw]; exact giv hn hg
    · rw [if_neg hw]; exact hg
  have hR : ∀ n v, Setting (d1 ++ ("KEYS".toList, (name, value) :: as) :: d2) "RESOURCES".toList n v ↔ Setting (d1 ++ ("KEYS".toList, as) :: d2) "RESOURCES".toList n v :=
    fun n v => hset _ _ _ (by decide)
  have hkey : ∀ u', ({ c' with keys := (u, key) :: c'.keys } : Config).key u' = if u = u' then some key else c'.key u' := fun u' => rfl
  have hconf : ConfOf f64 (d1 ++ ("KEYS".toList, (name, value) :: as) :: d2) { c' with keys := (u, key) :: c'.keys } := by
    refine ⟨giv (by decide) hc.debug, giv (by decide) hc.port, giv (by decide) hc.controlTimeout, giv (by decide) hc.controlErrorPolicy,
      giv (by decide) hc.seccomp, ⟨?_, ?_, ?_⟩, ?_, ⟨?_, ?_, ?_, ?_⟩, hc.resourcesNodup, givIf (by decide) hc.defaultUser,
      givIf (by decide) hc.nftExe, givIf (by decide) hc.nftFamily, givIf (by decide) hc.nftTable, givIf (by decide) hc.nftChainInput,
      givIf (by decide) hc.nftTimeout⟩
    · intro n v hsv
      rcases (hsetK n v).1 hsv with hsv | ⟨rfl, rfl⟩
      · exact hc.keys.valid n v hsv
      · exact ⟨_, key, hname, hvalue⟩
    · intro n v n' v' x h6 h7 h8 h9
      rcases (hsetK n v).1 h6 with g6 | ⟨rfl, rfl⟩
      · rcases (hsetK n' v').1 h7 with g7 | ⟨rfl, rfl⟩
        · exact hc.keys.distinct n v n' v' x g6 g7 h8 h9
        · have := idText_unique h9 hname
          subst this
          exact absurd h8 (hfresh n v g6)
      · rcases (hsetK n' v').1 h7 with g7 | ⟨rfl, rfl⟩
        · have := idText_unique h8 hname
          subst this
          exact absurd h9 (hfresh n' v' g7)
        · rfl
    · intro u' k'
      rw [hkey]
      by_cases huu : u = u'
      · subst huu
        rw [if_pos rfl]
        constructor
        · intro h6
          injection h6 with h6
          subst h6
          exact ⟨name, value, (hsetK _ _).2 (.inr ⟨rfl, rfl⟩), hname, hvalue⟩
        · rintro ⟨n, v, h6, h7, h8⟩
          rcases (hsetK n v).1 h6 with h6 | ⟨rfl, rfl⟩
          · exact absurd h7 (hfresh n v h6)
          · rw [keyText_unique hvalue h8]
      · rw [if_neg huu, hc.keys.keys]
        constructor
        · rintro ⟨n, v, h6, h7⟩; exact ⟨n, v, (hsetK _ _).2 (.inl h6), h7⟩
        · rintro ⟨n, v, h6, h7, h8⟩
          rcases (hsetK n v).1 h6 with h6 | ⟨rfl, rfl⟩
          · exact ⟨n, v, h6, h7, h8⟩
          · exfalso
            have := idText_unique h7 hname
            apply huu
            cases u; cases u'; simp at this; rw [this]
    · rw [List.map_cons, List.nodup_cons]
      refine ⟨?_, hc.keysNodup⟩
      intro hm
      obtain ⟨e, he, hee⟩ := List.mem_map.1 hm
      have h8 := assocGet_of_mem hc.keysNodup (k := e.1) (v := e.2) he
      rw [hee] at h8
      change c'.key u = _ at h8
      rw [hnew] at h8; cases h8
    · simpa only [hR] using hc.resources.valid
    · simpa only [hR] using hc.resources.distinct
    · simpa only [hR] using hc.resources.ports
    · intro id r
      simp only [hR]
      exact hc.resources.resources id r
  exact C54_described_is_loaded ho ⟨s', rfl, _, hs', h5, by rw [hnm]; exact h3⟩ hconf hv

def genkeyExampleKey : Key := ⟨List.replicate 31 0x0A ++ [0xFB], by decide⟩

example : secureRandom KEY_SIZE (some genkeyExampleKey) = .ok genkeyExampleKey := by decide +kernel
example : genkeyLine exampleLoaded (some ⟨0x1F⟩) genkeyExampleKey =
    "0000001F = 0A0A0A0A0A0A0A0A0A0A0A0A0A0A0A0A0A0A0A0A0A0A0A0A0A0A0A0A0A0A0AFB".toList := by decide +kernel
/-- The line in a new file, and in the example file after `[KEYS]`. -/
example : ((Config.new .Server).load noF64 id [] (.text ("[KEYS]\n".toList ++ genkeyLine exampleLoaded (some ⟨0x1F⟩) genkeyExampleKey))).2.keys =
    [(⟨0x1F⟩, genkeyExampleKey)] := by decide +kernel
example : ∃ a b, TextLines exampleText (a ++ "[KEYS]".toList :: b) ∧ HeaderLine "[KEYS]".toList "KEYS".toList ∧ exampleLoaded.key ⟨0x1F⟩ = none := by
  refine ⟨(lines exampleText).take 7, (lines exampleText).drop 8, textLines_iff.2 (by decide +kernel), ?_, by decide⟩
  exact ⟨[], [], by decide, by simp [Blank], by simp [Blank], by decide⟩

end Letmein.Props
