import Verif.Props.ConfWrite

/-!
# Exact versions of C33, C40, C41 and C55

These properties of configuration files are false of the code as stated. Here it is said exactly what is true instead.
-/

namespace Letmein.Props

open Letmein Prog Spec

/-! ## C33, C41: what a successful load means -/

/-- **C33** (exact). After a successful load either all settings come from the file, or the program is a client, the file is not well-formed (or cannot be
read) and all settings are the old ones. -/
theorem C33_exact {f64 : F64Secs} {order : IterOrder} (ho : IsOrder order) {c c' : Config} {path : Str} {file : FileContent}
    (h : c.load f64 order path file = (.ok (), c')) :
    (∃ d, FileDoc file d ∧ ConfOf f64 d c') ∨
      ((¬ ∃ d, FileDoc file d) ∧ c.variant = .Client ∧ c' = { c with path := some path }) := by
  rcases load_ok_iff.1 h with ⟨ini, c1, h3, -, -⟩ | ⟨h3, h4, h5⟩
  · obtain ⟨d, hd, -⟩ := newFromFile_ok h3
    exact .inl ⟨d, hd, (C54_loaded_is_described ho hd h).1⟩
  · refine .inr ⟨?_, ?_, h5⟩
    · rintro ⟨d, hd⟩
      obtain ⟨ini, h1, -⟩ := newFromFile_doc hd
      rw [h1] at h3
      cases h3
    · cases hv : c.variant with
      | Client => rfl
      | Server => exact absurd hv h4

/-- **C41** (exact). A load succeeds exactly if the file describes a configuration, or if the program is a client and the file is not well-formed (or cannot
be read). -/
theorem C41_ok_iff {f64 : F64Secs} {order : IterOrder} (ho : IsOrder order) (c : Config) (path : Str) (file : FileContent) :
    (c.load f64 order path file).1 = .ok () ↔
      (∃ d c', FileDoc file d ∧ ConfOf f64 d c' ∧ c'.variant = c.variant) ∨ (c.variant = .Client ∧ ¬ ∃ d, FileDoc file d) := by
  constructor
  · intro hl
    have h : c.load f64 order path file = (.ok (), (c.load f64 order path file).2) := by rw [← hl]
    rcases C33_exact ho h with ⟨d, hd, hc⟩ | ⟨h1, h2, -⟩
    · exact .inl ⟨d, _, hd, hc, (C54_loaded_is_described ho hd h).2.1⟩
    · exact .inr ⟨h2, h1⟩
  · rintro (⟨d, c', hd, hc, hv⟩ | ⟨hv, hd⟩)
    · obtain ⟨c2, h, -⟩ := C54_described_is_loaded (path := path) ho hd hc hv
      rw [h]
    · have : c.load f64 order path file = (.ok (), { c with path := some path }) := by
        refine load_ok_iff.2 (.inr ⟨?_, by rw [hv]; decide, rfl⟩)
        cases h : Ini.newFromFile file with
        | ok ini => obtain ⟨d, hd', -⟩ := newFromFile_ok h; exact absurd ⟨d, hd'⟩ hd
        | err => rfl
        | panic => exact absurd h (newFromFile_not_panic file)
      rw [this]

/-- A line before the first section: the client goes on with its defaults, the server reports the error. -/
example : ((Config.new .Client).load noF64 id [] (.text "debug = yes".toList)).1 = .ok () ∧
    ((Config.new .Server).load noF64 id [] (.text "debug = yes".toList)).1 = .err ∧
    ((Config.new .Client).load noF64 id [] (.text "[GENERAL]\ndebug = 2".toList)).1 = .err := by decide +kernel

/-! ## C40: repeated definitions -/

theorem lastValue_cons {x : Str × Str} {as : List (Str × Str)} {n v : Str} :
    LastValue (x :: as) n v ↔ LastValue as n v ∨ (x = (n, v) ∧ ∀ e ∈ as, e.1 ≠ n) := by
  constructor
  · rintro ⟨a, b, h, hb⟩
    cases a with
    | nil => injection h with h1 h2; subst h2; exact .inr ⟨h1, hb⟩
    | cons y a => injection h with _ h; exact .inl ⟨a, b, h, hb⟩
  · rintro (⟨a, b, rfl, hb⟩ | ⟨rfl, hb⟩)
    · exact ⟨x :: a, b, rfl, hb⟩
    · exact ⟨[], as, rfl, hb⟩

theorem lastValue_overridden (a b e : List (Str × Str)) (n v1 v2 o v : Str) :
    LastValue (a ++ (n, v1) :: (b ++ (n, v2) :: e)) o v ↔ LastValue (a ++ (b ++ (n, v2) :: e)) o v := by
  induction a with
  | nil =>
    rw [List.nil_append, List.nil_append, lastValue_cons]
    refine ⟨fun h => h.elim id fun h => ?_, .inl⟩
    obtain ⟨h1, h2⟩ := h
    injection h1 with h1 _
    exact absurd h1 (h2 (n, v2) (by simp))
  | cons x a ih =>
    rw [List.cons_append, List.cons_append, lastValue_cons, lastValue_cons, ih]
    refine or_congr Iff.rfl (and_congr Iff.rfl ⟨fun h e he => h e ?_, fun h e he => ?_⟩)
    · rw [List.mem_append] at he ⊢
      exact he.imp id (fun h => List.mem_cons_of_mem _ h)
    · rcases List.mem_append.1 he with he | he
      · exact h e (List.mem_append_left _ he)
      · rcases List.mem_cons.1 he with rfl | he
        · exact h (n, v2) (by simp)
        · exact h e (List.mem_append_right _ he)

theorem sameButBlanks_refl (v : Str) : SameButBlanks v v := ⟨trim v, trim_spec v, trim_spec v⟩

/-- **C40** (what happens to repeated definitions). In any section, an assignment that is followed by another one to the same name, spelled the same, has no
influence at all: without it the file has the same outcome. -/
theorem C40_overridden {f64 : F64Secs} {order order' : IterOrder} (ho : IsOrder order) (ho' : IsOrder order') (c : Config) (path : Str)
    {file file' : FileContent} {d1 d2 : Doc} {sect n v1 v2 : Str} {a b e : List (Str × Str)}
    (hd : FileDoc file (d1 ++ (sect, a ++ (n, v1) :: (b ++ (n, v2) :: e)) :: d2))
    (hd' : FileDoc file' (d1 ++ (sect, a ++ (b ++ (n, v2) :: e)) :: d2)) :
    (c.load f64 order path file).1 = (c.load f64 order' path file').1 ∧
      SameConf (c.load f64 order path file).2 (c.load f64 order' path file').2 := by
  have key : ∀ x y : List (Str × Str), (∀ o v, LastValue x o v → LastValue y o v) → SettingsIn (d1 ++ (sect, x) :: d2) (d1 ++ (sect, y) :: d2) := by
    rintro x y hxy m o v ⟨as, h1, h2⟩
    refine ⟨v, ?_, sameButBlanks_refl v⟩
    simp only [List.mem_append, List.mem_cons] at h1
    rcases h1 with h1 | h1 | h1
    · exact ⟨as, by simp [h1], h2⟩
    · injection h1 with h1 h3
      subst h1 h3
      exact ⟨y, by simp, hxy _ _ h2⟩
    · exact ⟨as, by simp [h1], h2⟩
  exact C94_same_settings ho ho' c path hd hd' (key _ _ fun o v => (lastValue_overridden a b e n v1 v2 o v).1)
    (key _ _ fun o v => (lastValue_overridden a b e n v1 v2 o v).2)

/-- **C40** (exact). A file that has been loaded defines no user or resource twice exactly if no name is spelled the same twice in the section. -/
theorem C40_distinct_iff {f64 : F64Secs} {order : IterOrder} (ho : IsOrder order) {c c' : Config} {path : Str} {file : FileContent}
    {d : Doc} (hd : FileDoc file d) (h : c.load f64 order path file = (.ok (), c'))
    {sect : Str} (hsect : sect = "KEYS".toList ∨ sect = "RESOURCES".toList) {as : List (Str × Str)} (has : (sect, as) ∈ d) :
    as.Pairwise (fun e e' => ¬ ∃ x, IdText e.1 x ∧ IdText e'.1 x) ↔ (as.map (·.1)).Nodup := by
  have hpair := C40_duplicates_rejected_partial ho hd h hsect has
  obtain ⟨hc, -⟩ := C54_loaded_is_described ho hd h
  have hid : ∀ e ∈ as, ∃ x, IdText e.1 x := by
    intro e he
    obtain ⟨v, hv⟩ := lastValue_exists he
    have hs : Setting d sect e.1 v := ⟨as, has, hv⟩
    rcases hsect with rfl | rfl
    · obtain ⟨x, _, hx, _⟩ := hc.keys.valid _ _ hs; exact ⟨x, hx⟩
    · obtain ⟨x, _, hx, _⟩ := hc.resources.valid _ _ hs; exact ⟨x, hx⟩
  unfold List.Nodup
  rw [List.pairwise_map]
  constructor
  · intro hp
    refine List.Pairwise.imp_of_mem (fun {e e'} he _ hn heq => ?_) hp
    obtain ⟨x, hx⟩ := hid e he
    exact hn ⟨x, hx, by rw [← heq]; exact hx⟩
  · intro hp
    exact (hp.and hpair).imp fun hx => hx.2 hx.1

/-- The second line overrides the first, and a file without the first is loaded with the same result. -/
example : (Config.new .Server).load noF64 id [] (.text duplicateText) =
    (Config.new .Server).load noF64 id [] (.text "[RESOURCES]\n7 = port: 22\n".toList) ∧
    ((Config.new .Server).load noF64 id [] (.text duplicateText)).1 = .ok () ∧
    ((Config.new .Server).load noF64 id [] (.text "[RESOURCES]\n7 = port: 22 / users: 1\n07 = port: 22\n".toList)).1 = .err := by
  decide +kernel

/-! ## C55: unknown names -/

/-- **C55** (what happens to unknown names). Files that agree on the known names have the same outcome, whatever else they contain. -/
theorem C55_same_outcome {f64 : F64Secs} {order order' : IterOrder} (ho : IsOrder order) (ho' : IsOrder order') (c : Config) (path : Str)
    {file file' : FileContent} {d d' : Doc} (hd : FileDoc file d) (hd' : FileDoc file' d')
    (hk : ∀ sect opt v, knownName sect opt = true → (Setting d sect opt v ↔ Setting d' sect opt v)) :
    (c.load f64 order path file).1 = (c.load f64 order' path file').1 ∧
      SameConf (c.load f64 order path file).2 (c.load f64 order' path file').2 := by
  have hiff : ∀ c', ConfOf f64 d c' ↔ ConfOf f64 d' c' := fun c' => C55_unknown_names_ignored_partial hk
  have one : ∀ {o1 o2 : IterOrder} {f1 f2 : FileContent} {x y : Doc} {c1 : Config}, IsOrder o1 → IsOrder o2 → FileDoc f1 x → FileDoc f2 y →
      (∀ c', ConfOf f64 x c' → ConfOf f64 y c') → c.load f64 o1 path f1 = (.ok (), c1) → ∃ c2, c.load f64 o2 path f2 = (.ok (), c2) ∧ SameConf c2 c1 := by
    intro o1 o2 f1 f2 x y c1 h1 h2 hx hy hxy hl
    obtain ⟨h3, h4, -⟩ := C54_loaded_is_described h1 hx hl
    exact C54_described_is_loaded h2 hy (hxy _ h3) h4
  have n1 := C33_failure_changes_nothing f64 order c path file
  have n2 := C33_failure_changes_nothing f64 order' c path file'
  rcases e : c.load f64 order path file with ⟨r, c1⟩
  rcases e' : c.load f64 order' path file' with ⟨r', c2⟩
  rw [e] at n1
  rw [e'] at n2
  simp only at n1 n2 ⊢
  cases r with
  | panic => exact absurd rfl n1.1
  | ok u =>
    obtain ⟨c3, h1, h2⟩ := one ho ho' hd hd' (fun c' => (hiff c').1) e
    rw [e'] at h1
    injection h1 with h1 h3
    subst h1 h3
    exact ⟨rfl, sameConf_symm h2⟩
  | err =>
    cases r' with
    | panic => exact absurd rfl n2.1
    | ok u =>
      obtain ⟨c3, h1, h2⟩ := one ho' ho hd' hd (fun c' => (hiff c').2) e'
      rw [e] at h1
      injection h1 with h1 _
      cases h1
    | err =>
      rw [n1.2 (by simp), n2.2 (by simp)]
      exact ⟨rfl, sameConf_refl c⟩

/-- A misspelled option and an unknown section change nothing. -/
example : (Config.new .Server).load noF64 id [] (.text "[GENERAL]\nport = 99\nSeccomp = kill\n[LOGGING]\nlevel = 3".toList) =
    (Config.new .Server).load noF64 id [] (.text "[GENERAL]\nport = 99".toList) := by decide +kernel

end Letmein.Props
