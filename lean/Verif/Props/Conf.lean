import Verif.Lemmas.Conf
import Verif.Props.Session

/-!
# Properties C33–C37, C40, C41, C54, C55: loading a configuration
-/

namespace Letmein.Props

open Letmein Prog Spec

/-- The order of a hash map's iteration is some permutation. -/
def IsOrder (order : IterOrder) : Prop := ∀ l, (order l).Perm l

/-- The file contains this document. -/
def FileDoc (file : FileContent) (d : Doc) : Prop := ∃ s, file = .text s ∧ IniText s d

/-- Two configurations with the same settings; the maps are compared by their lookups. -/
structure SameConf (a b : Config) : Prop where
  variant : a.variant = b.variant
  debug : a.debug = b.debug
  port : a.port = b.port
  controlTimeout : a.controlTimeout = b.controlTimeout
  controlErrorPolicy : a.controlErrorPolicy = b.controlErrorPolicy
  seccomp : a.seccomp = b.seccomp
  keys : ∀ u, a.key u = b.key u
  resources : ∀ id, a.resource id = b.resource id
  defaultUser : a.defaultUser = b.defaultUser
  nftExe : a.nftExe = b.nftExe
  nftFamily : a.nftFamily = b.nftFamily
  nftTable : a.nftTable = b.nftTable
  nftChainInput : a.nftChainInput = b.nftChainInput
  nftTimeout : a.nftTimeout = b.nftTimeout

/-! ## Example -/

/-- A configuration file with comments, both kinds of line ends, spellings of all sorts. -/
def exampleText : Str :=
  ("# letmein\n\n[GENERAL]\r\n  debug = YES\nport = 5800 / udp, TCP\ncontrol-timeout=2\ncontrol-error-policy = Basic-Auth\n" ++
  "[KEYS]\n  0000a1 = 00112233445566778899aabbccddeeff00112233445566778899AABBCCDDEEFF\n" ++
  "[RESOURCES]\n  7 = port: 0x16 / users: A1, 2\n 8 = udp / port:53\n").toList

/-- No fractions of seconds. -/
def noF64 : F64Secs := fun _ => none

def exampleKey : Key := ⟨[0x00, 0x11, 0x22, 0x33, 0x44, 0x55, 0x66, 0x77, 0x88, 0x99, 0xAA, 0xBB, 0xCC, 0xDD, 0xEE, 0xFF,
  0x00, 0x11, 0x22, 0x33, 0x44, 0x55, 0x66, 0x77, 0x88, 0x99, 0xAA, 0xBB, 0xCC, 0xDD, 0xEE, 0xFF], rfl⟩

def exampleLoaded : Config :=
  { Config.new .Server with
    path := some "/etc/letmeind.conf".toList, debug := true, port := { port := 5800, tcp := true, udp := true }, controlTimeout := 2000000000,
    controlErrorPolicy := .BasicAuth, keys := [(⟨0xA1⟩, exampleKey)],
    resources := [(⟨7⟩, { port := 22, tcp := true, udp := false, users := [⟨0xA1⟩, ⟨2⟩] }), (⟨8⟩, { port := 53, tcp := false, udp := true, users := [] })],
    nftExe := "nft".toList }

theorem id_order : IsOrder id := fun l => List.Perm.refl l
theorem reverse_order : IsOrder List.reverse := fun l => List.reverse_perm l

theorem example_load : (Config.new .Server).load noF64 id "/etc/letmeind.conf".toList (.text exampleText) = (.ok (), exampleLoaded) := by
  decide +kernel

/-! ## C54: a loaded configuration is exactly what the file says -/

theorem load_ok_iff {f64 : F64Secs} {order : IterOrder} {c c' : Config} {path : Str} {file : FileContent} :
    c.load f64 order path file = (.ok (), c') ↔
      (∃ ini c1, Ini.newFromFile file = .ok ini ∧ c.values f64 order ini = .ok c1 ∧ c' = { c1 with path := some path }) ∨
      (Ini.newFromFile file = .err ∧ c.variant ≠ .Server ∧ c' = { c with path := some path }) := by
  unfold Config.load Config.loadIni
  cases hf : Ini.newFromFile file with
  | ok ini =>
    simp only [R.ok.injEq, reduceCtorEq, false_and, or_false]
    cases hv : c.values f64 order ini with
    | ok c1 =>
      simp only [Prod.mk.injEq, true_and]
      constructor
      · rintro rfl; exact ⟨ini, c1, rfl, hv, rfl⟩
      · rintro ⟨ini', c2, rfl, h1, rfl⟩
        rw [hv] at h1; injection h1 with h1; subst h1; rfl
    | err =>
      simp only [Prod.mk.injEq, reduceCtorEq, false_and, false_iff]
      rintro ⟨ini', c2, rfl, h1, -⟩
      rw [hv] at h1; cases h1
    | panic =>
      simp only [Prod.mk.injEq, reduceCtorEq, false_and, false_iff]
      rintro ⟨ini', c2, rfl, h1, -⟩
      rw [hv] at h1; cases h1
  | err =>
    simp only [reduceCtorEq, false_and, exists_false, false_or, true_and]
    by_cases hv : c.variant = .Server
    · rw [if_pos hv]; simp [hv]
    · rw [if_neg hv]; simp [hv]; exact eq_comm
  | panic => simp

theorem newFromFile_not_panic (file : FileContent) : Ini.newFromFile file ≠ .panic := by
  cases file <;> simp [Ini.newFromFile]
  exact parseStr_not_panic _

theorem newFromFile_ok {file : FileContent} {ini : Ini} (h : Ini.newFromFile file = .ok ini) : ∃ d, FileDoc file d ∧ Reads ini d := by
  cases file with
  | text s =>
    obtain ⟨d, h1, h2⟩ := parseStr_sound h
    exact ⟨d, ⟨s, rfl, h1⟩, h2⟩
  | _ => cases h

theorem newFromFile_doc {file : FileContent} {d : Doc} (h : FileDoc file d) : ∃ ini, Ini.newFromFile file = .ok ini ∧ Reads ini d := by
  obtain ⟨s, rfl, h1⟩ := h
  exact parseStr_complete h1

theorem confOf_path {f64 : F64Secs} {d : Doc} {c : Config} {p : Option Str} (h : ConfOf f64 d c) : ConfOf f64 d { c with path := p } :=
  ⟨h.debug, h.port, h.controlTimeout, h.controlErrorPolicy, h.seccomp, h.keys, h.keysNodup, h.resources, h.resourcesNodup, h.defaultUser,
    h.nftExe, h.nftFamily, h.nftTable, h.nftChainInput, h.nftTimeout⟩

theorem given_unique {α : Type} {d : Doc} (hn : (d.map (·.1)).Nodup) {n o : String} {P : Str → α → Prop} {dflt x y : α}
    (hP : ∀ s x y, P s x → P s y → x = y) (hx : Given d n o P dflt x) (hy : Given d n o P dflt y) : x = y := by
  rcases hx with ⟨v, h1, h2⟩ | ⟨h1, rfl⟩
  · rcases hy with ⟨v', h1', h2'⟩ | ⟨h1', -⟩
    · rw [setting_unique hn h1 h1'] at h2
      exact hP _ _ _ h2 h2'
    · exact absurd ⟨v, h1⟩ h1'
  · rcases hy with ⟨v', h1', -⟩ | ⟨-, rfl⟩
    · exact absurd ⟨v', h1'⟩ h1
    · rfl

theorem unique_of_parse {α : Type} {parse : Str → R α} {P : Str → α → Prop} (h : ∀ {s x}, parse s = .ok x ↔ P s x) :
    ∀ s x y, P s x → P s y → x = y := by
  intro s x y hx hy
  rw [← h] at hx hy
  rw [hx] at hy; injection hy

theorem given_or_unique {α : Type} {v w : ConfigVariant} {d : Doc} (hn : (d.map (·.1)).Nodup) {n o : String} {P : Str → α → Prop} {dflt dflt' x y : α}
    (hP : ∀ s x y, P s x → P s y → x = y) (hx : if v = w then Given d n o P dflt x else x = dflt')
    (hy : if v = w then Given d n o P dflt y else y = dflt') : x = y := by
  split at hx
  · rename_i h; rw [if_pos h] at hy; exact given_unique hn hP hx hy
  · rename_i h; rw [if_neg h] at hy; rw [hx, hy]

/-- C54: the specification determines all settings. -/
theorem C54_determined {f64 : F64Secs} {d : Doc} (hn : (d.map (·.1)).Nodup) {a b : Config} (hv : a.variant = b.variant)
    (ha : ConfOf f64 d a) (hb : ConfOf f64 d b) : SameConf a b := by
  have t : ∀ s x y, Trimmed s x → Trimmed s y → x = y := by
    intro s x y hx hy; rw [trimmed_iff] at hx hy; rw [← hx, ← hy]
  have a1 := ha.defaultUser; have b1 := hb.defaultUser
  have a2 := ha.nftExe; have b2 := hb.nftExe
  have a3 := ha.nftFamily; have b3 := hb.nftFamily
  have a4 := ha.nftTable; have b4 := hb.nftTable
  have a5 := ha.nftChainInput; have b5 := hb.nftChainInput
  have a6 := ha.nftTimeout; have b6 := hb.nftTimeout
  rw [hv] at a1 a2 a3 a4 a5 a6
  refine ⟨hv, given_unique hn (unique_of_parse parseBool_iff) ha.debug hb.debug, given_unique hn (unique_of_parse parsePort_iff) ha.port hb.port,
    given_unique hn (unique_of_parse parseDuration_iff) ha.controlTimeout hb.controlTimeout,
    given_unique hn (unique_of_parse errorPolicy_iff) ha.controlErrorPolicy hb.controlErrorPolicy,
    given_unique hn (unique_of_parse seccomp_iff) ha.seccomp hb.seccomp, ?_, ?_,
    given_or_unique hn ?_ a1 b1, given_or_unique hn t a2 b2, given_or_unique hn ?_ a3 b3, given_or_unique hn t a4 b4,
    given_or_unique hn t a5 b5, given_or_unique hn (unique_of_parse parseDuration_iff) a6 b6⟩
  · intro u; apply Option.ext; intro k; rw [ha.keys.keys, hb.keys.keys]
  · intro u; apply Option.ext; intro k; rw [ha.resources.resources, hb.resources.resources]
  · intro s x y hx hy
    have := idText_unique hx hy
    cases x; cases y; simp at this; rw [this]
  · intro s x y hx hy; exact t s x y hx.1 hy.1

/-- C54: a configuration loaded from a well-formed file is the one the file describes. -/
theorem C54_loaded_is_described {f64 : F64Secs} {order : IterOrder} (ho : IsOrder order) {c c' : Config} {path : Str} {file : FileContent} {d : Doc}
    (hd : FileDoc file d) (h : c.load f64 order path file = (.ok (), c')) :
    ConfOf f64 d c' ∧ c'.variant = c.variant ∧ c'.path = some path := by
  obtain ⟨ini, h1, h2⟩ := newFromFile_doc hd
  rw [load_ok_iff] at h
  rcases h with ⟨ini', c1, h3, h4, rfl⟩ | ⟨h3, -⟩
  · rw [h1] at h3; injection h3 with h3; subst h3
    obtain ⟨h5, h6, -⟩ := values_sound ho h2 h4
    exact ⟨confOf_path h5, h6, rfl⟩
  · rw [h1] at h3; cases h3

/-- C54: every file that describes a configuration is loaded. -/
theorem C54_described_is_loaded {f64 : F64Secs} {order : IterOrder} (ho : IsOrder order) {c c1 : Config} {path : Str} {file : FileContent} {d : Doc}
    (hd : FileDoc file d) (h : ConfOf f64 d c1) (hv : c1.variant = c.variant) :
    ∃ c', c.load f64 order path file = (.ok (), c') ∧ SameConf c' c1 := by
  obtain ⟨ini, h1, h2⟩ := newFromFile_doc hd
  obtain ⟨c2, h3⟩ := values_complete ho h2 h hv
  have h4 := load_ok_iff (path := path).2 (.inl ⟨ini, c2, h1, h3, rfl⟩)
  refine ⟨_, h4, ?_⟩
  have h5 := C54_loaded_is_described ho hd h4
  exact C54_determined h2.nodup (h5.2.1.trans hv.symm) h5.1 h

/-- C54: a server loads a configuration only from a well-formed file. -/
theorem C54_server_needs_document {f64 : F64Secs} {order : IterOrder} {c c' : Config} {path : Str} {file : FileContent}
    (hv : c.variant = .Server) (h : c.load f64 order path file = (.ok (), c')) : ∃ d, FileDoc file d := by
  rw [load_ok_iff] at h
  rcases h with ⟨ini, c1, h3, -⟩ | ⟨-, h3, -⟩
  · obtain ⟨d, h4, -⟩ := newFromFile_ok h3
    exact ⟨d, h4⟩
  · exact absurd hv h3

/-- The hypotheses are met by the example file, and what is loaded is as expected. -/
example : ∃ d, FileDoc (.text exampleText) d ∧ ConfOf noF64 d exampleLoaded ∧ exampleLoaded.port.port = 5800 ∧
    exampleLoaded.resource ⟨7⟩ = some { port := 22, tcp := true, udp := false, users := [⟨0xA1⟩, ⟨2⟩] } := by
  obtain ⟨d, hd⟩ := C54_server_needs_document rfl example_load
  exact ⟨d, hd, (C54_loaded_is_described id_order hd example_load).1, by decide, by decide⟩

/-- The characters of Unicode's property White_Space. -/
def whiteSpace : List Nat :=
  [0x09, 0x0A, 0x0B, 0x0C, 0x0D, 0x20, 0x85, 0xA0, 0x1680, 0x2000, 0x2001, 0x2002, 0x2003, 0x2004, 0x2005, 0x2006, 0x2007, 0x2008, 0x2009,
    0x200A, 0x2028, 0x2029, 0x202F, 0x205F, 0x3000]

/-- C54: the blanks around names and values, which the description ignores, are exactly Unicode's white space, so that there are no others to make two
names differ invisibly. -/
theorem C54_blanks (c : Char) : isWhitespace c = true ↔ c.toNat ∈ whiteSpace := by
  simp only [isWhitespace, whiteSpace, Bool.or_eq_true, Bool.and_eq_true, decide_eq_true_eq, List.mem_cons, List.not_mem_nil, or_false]
  omega

example : trimEnd (trimStart "\t\u00a0 a b\u3000\r".toList) = "a b".toList ∧ isWhitespace '\u200b' = false := by decide +kernel

/-! ## C33: all or nothing -/

/-- C33, failure: nothing changes, and loading never panics. -/
theorem C33_failure_changes_nothing (f64 : F64Secs) (order : IterOrder) (c : Config) (path : Str) (file : FileContent) :
    (c.load f64 order path file).1 ≠ .panic ∧
      ((c.load f64 order path file).1 ≠ .ok () → (c.load f64 order path file).2 = c) := by
  unfold Config.load Config.loadIni
  cases hf : Ini.newFromFile file with
  | panic => exact absurd hf (newFromFile_not_panic file)
  | ok ini =>
    simp only
    cases hv : c.values f64 order ini with
    | ok c1 => simp
    | err => simp
    | panic => exact absurd hv (values_not_panic _ _ _ _)
  | err =>
    simp only
    split <;> simp

/-- C33, success: every setting is as the file says or a default, for every old configuration.
(Missing: the client ignores a file that cannot be read or is not well-formed, see `C33_negation`.) -/
theorem C33_success_all_new_partial {f64 : F64Secs} {order : IterOrder} (ho : IsOrder order) {c c' : Config} {path : Str} {file : FileContent}
    (h : c.load f64 order path file = (.ok (), c')) (hf : c.variant = .Server ∨ ∃ d, FileDoc file d) :
    ∃ d, FileDoc file d ∧ ConfOf f64 d c' ∧
      ∀ c2 : Config, c2.variant = c.variant → c2.load f64 order path file = (.ok (), c') := by
  have hd : ∃ d, FileDoc file d := by
    rcases hf with hf | hf
    · exact C54_server_needs_document hf h
    · exact hf
  obtain ⟨d, hd⟩ := hd
  refine ⟨d, hd, (C54_loaded_is_described ho hd h).1, ?_⟩
  intro c2 hv
  rw [load_ok_iff] at h ⊢
  rcases h with ⟨ini, c1, h1, h2, h3⟩ | ⟨h1, -⟩
  · left
    have : ∃ c1', c2.values f64 order ini = .ok c1' ∧ ({ c1' with path := some path } : Config) = { c1 with path := some path } := by
      simp only [Config.values, R.bind_eq_ok] at h2 ⊢
      obtain ⟨debug, e1, port, e2, ct, e3, ep, e4, sc, e5, keys, e6, ress, e7, du, e8, ne, e9, nf, e10, nt, e11, nc, e12, nto, e13, e14⟩ := h2
      rw [← hv] at e8 e9 e10 e11 e12 e13
      injection e14 with e14
      subst e14
      exact ⟨_, ⟨debug, e1, port, e2, ct, e3, ep, e4, sc, e5, keys, e6, ress, e7, du, e8, ne, e9, nf, e10, nt, e11, nc, e12, nto, e13, rfl⟩, by rw [hv]⟩
    obtain ⟨c1', h4, h5⟩ := this
    exact ⟨ini, c1', h1, h4, by rw [h3, h5]⟩
  · obtain ⟨ini, h4, -⟩ := newFromFile_doc hd
    rw [h1] at h4; cases h4

/-- C33 for the client as it is used: a fresh configuration only has defaults if the file is ignored. -/
theorem C33_client_fresh {f64 : F64Secs} {order : IterOrder} {path : Str} {file : FileContent} (hf : ¬ ∃ d, FileDoc file d) :
    ∃ c', (Config.new .Client).load f64 order path file = (.ok (), c') ∧ ConfOf f64 [] c' := by
  refine ⟨{ Config.new .Client with path := some path }, load_ok_iff.2 (.inr ⟨?_, by decide, rfl⟩), ?_⟩
  · cases h : Ini.newFromFile file with
    | ok ini => obtain ⟨d, hd, -⟩ := newFromFile_ok h; exact absurd ⟨d, hd⟩ hf
    | err => rfl
    | panic => exact absurd h (newFromFile_not_panic file)
  · have no : ∀ n o : Str, ¬ ∃ v, Setting [] n o v := by
      rintro n o ⟨v, as, h, -⟩; cases h
    have no' : ∀ n o v : Str, ¬ Setting [] n o v := fun n o v h => no n o ⟨v, h⟩
    refine ⟨.inr ⟨no _ _, rfl⟩, .inr ⟨no _ _, rfl⟩, .inr ⟨no _ _, rfl⟩, .inr ⟨no _ _, rfl⟩, .inr ⟨no _ _, rfl⟩, ?_, .nil, ?_, .nil,
      .inr ⟨no _ _, rfl⟩, rfl, rfl, rfl, rfl, rfl⟩
    · refine ⟨fun n v h => absurd h (no' _ _ _), fun n v n' v' x h => absurd h (no' _ _ _), fun u k => ?_⟩
      constructor
      · intro h; cases h
      · rintro ⟨n, v, h, -⟩; exact absurd h (no' _ _ _)
    · refine ⟨fun n v h => absurd h (no' _ _ _), fun n v n' v' x h => absurd h (no' _ _ _), fun n v n' v' x _ h => absurd h (no' _ _ _), fun u k => ?_⟩
      constructor
      · intro h; cases h
      · rintro ⟨n, v, h, -⟩; exact absurd h (no' _ _ _)

/-- C33 as stated: success means that all settings come from the file. -/
def C33_statement : Prop :=
  ∀ (f64 : F64Secs) (order : IterOrder) (c c' : Config) (path : Str) (file : FileContent), IsOrder order →
    c.load f64 order path file = (.ok (), c') → ∃ d, FileDoc file d ∧ ConfOf f64 d c'

/-- C33 is not true: a client that reloads a file that has become malformed keeps all the old settings and reports success. -/
theorem C33_negation : ¬ C33_statement := by
  intro h
  obtain ⟨d, ⟨s, hs, hd⟩, -⟩ := h noF64 id { exampleLoaded with variant := .Client } { exampleLoaded with variant := .Client, path := some [] } []
    (.text "debug = no".toList) id_order (by decide +kernel)
  injection hs with hs
  subst hs
  obtain ⟨ini, h1, -⟩ := parseStr_complete hd
  have : Ini.parseStr "debug = no".toList = .err := by
    have h2 : (match Ini.parseStr "debug = no".toList with | .err => true | _ => false) = true := by decide +kernel
    cases h3 : Ini.parseStr "debug = no".toList with
    | err => rfl
    | ok _ => rw [h3] at h2; cases h2
    | panic => rw [h3] at h2; cases h2
  rw [this] at h1; cases h1

/-- A failing reload of the example (unknown word in `debug`) leaves everything as it was. -/
example : exampleLoaded.load noF64 id [] (.text "[GENERAL]\nseccomp = kill\ndebug = maybe".toList) = (.err, exampleLoaded) := by decide +kernel
example : (exampleLoaded.load noF64 id [] (.text "[GENERAL]\nseccomp = kill".toList)).2.keys = [] := by decide +kernel

/-! ## C34: users restrictions -/

/-- C34: every entry of the resources section is loaded, and the loaded resource permits exactly the users listed in its users item, or
everybody if there is no such item. -/
theorem C34_users_restriction {f64 : F64Secs} {order : IterOrder} (ho : IsOrder order) {c c' : Config} {path : Str} {file : FileContent} {d : Doc}
    (hd : FileDoc file d) (h : c.load f64 order path file = (.ok (), c')) {n v : Str} (hs : Setting d "RESOURCES".toList n v) :
    ∃ id r, IdText n id.raw ∧ c'.resource id = some r ∧ ∃ items, Pieces '/' v items ∧
      (∀ item ∈ items, ∀ w, KeyItem item "users" w →
        ∃ ps us, Pieces ',' w ps ∧ IdTexts ps us ∧ us ≠ [] ∧ ∀ u, r.containsUser u = true ↔ u ∈ us) ∧
      ((∀ item ∈ items, ¬ ∃ w, KeyItem item "users" w) → ∀ u, r.containsUser u = true) := by
  obtain ⟨hc, -⟩ := C54_loaded_is_described ho hd h
  obtain ⟨x, r, hx, hr⟩ := hc.resources.valid n v hs
  refine ⟨⟨x⟩, r, hx, (hc.resources.resources _ _).2 ⟨n, v, hs, hx, hr⟩, ?_⟩
  obtain ⟨items, h1, h2, h3, h4, h5⟩ := hr
  refine ⟨items, h1, ?_, ?_⟩
  · intro item hi w hw
    rcases h4 with ⟨a, i, b, rfl, ⟨w', ps, hk, hp, hu⟩, hno⟩ | ⟨-, hno⟩
    · have hii : item = i := by
        rcases List.mem_append.1 hi with hi | hi
        · exact absurd ⟨w, hw⟩ (hno item (by simp [hi]))
        · rcases List.mem_cons.1 hi with hi | hi
          · exact hi
          · exact absurd ⟨w, hw⟩ (hno item (by simp [hi]))
      subst hii
      have hww : w = w' := by
        obtain ⟨k, e, hk1, -⟩ := hw
        obtain ⟨k', e', hk1', -⟩ := hk
        exact (append_cons_inj hk1 hk1' (e.symm.trans e')).2
      subst hww
      have hne : r.users ≠ [] := by
        intro e
        rw [e] at hu
        cases hu
        cases hp
      refine ⟨ps, r.users, hp, hu, hne, ?_⟩
      intro u
      unfold Resource.containsUser
      rw [if_neg (by simpa using hne)]
      simp
    · exact absurd ⟨w, hw⟩ (hno item hi)
  · intro hno u
    rcases h4 with ⟨a, i, b, rfl, ⟨w', ps, hk, hp, hu⟩, -⟩ | ⟨he, -⟩
    · exact absurd ⟨w', hk⟩ (hno i (by simp))
    · unfold Resource.containsUser; rw [he]; rfl

/-- C34: a loaded resource always comes from an entry. -/
theorem C34_only_defined_resources {f64 : F64Secs} {order : IterOrder} (ho : IsOrder order) {c c' : Config} {path : Str} {file : FileContent} {d : Doc}
    (hd : FileDoc file d) (h : c.load f64 order path file = (.ok (), c')) {id : ResourceId} {r : Resource} (hr : c'.resource id = some r) :
    ∃ n v, Setting d "RESOURCES".toList n v ∧ IdText n id.raw ∧ ResourceText v r := by
  obtain ⟨hc, -⟩ := C54_loaded_is_described ho hd h
  exact (hc.resources.resources _ _).1 hr

/-- Attempts at an empty or unreadable list of users do not load. -/
example : ∀ s ∈ ["7 = port: 22 / users:", "7 = port: 22 / users: ,", "7 = port: 22 / users: 1,", "7 = port: 22 / users: 1 2",
      "7 = port: 22 / users: 1 / users: 2", "7 = port: 22 / user: 1", "7 = port: 22 / Users: 1", "7 = port: 22 / users"],
    ((Config.new .Server).load noF64 id [] (.text ("[RESOURCES]\n".toList ++ s.toList))).1 = .err := by decide +kernel
example : exampleLoaded.resource ⟨7⟩ = some { port := 22, tcp := true, udp := false, users := [⟨0xA1⟩, ⟨2⟩] } ∧
    ({ port := 22, tcp := true, udp := false, users := [⟨0xA1⟩, ⟨2⟩] } : Resource).containsUser ⟨3⟩ = false := by decide

/-! ## C35: keys -/

/-- C35: a loaded key is written in the file as 64 hexadecimal digits, and is neither all zeros nor all ones. -/
theorem C35_key_is_written {f64 : F64Secs} {order : IterOrder} (ho : IsOrder order) {c c' : Config} {path : Str} {file : FileContent} {d : Doc}
    (hd : FileDoc file d) (h : c.load f64 order path file = (.ok (), c')) {u : UserId} {k : Key} (hk : c'.key u = some k) :
    (∃ n v t, Setting d "KEYS".toList n v ∧ IdText n u.raw ∧ Trimmed v t ∧ HexPairs t k.val ∧ t.length = 64) ∧
      k.val ≠ List.replicate 32 0x00 ∧ k.val ≠ List.replicate 32 0xFF := by
  obtain ⟨hc, -⟩ := C54_loaded_is_described ho hd h
  obtain ⟨n, v, h1, h2, ⟨t, h3, h4⟩, ⟨b, hb, hb'⟩, ⟨b2, hb2, hb2'⟩⟩ := (hc.keys.keys u k).1 hk
  refine ⟨⟨n, v, t, h1, h2, h3, h4, ?_⟩, ?_, ?_⟩
  · have := hexPairs_length h4; rw [this, k.property]; rfl
  · intro e; rw [e] at hb; exact hb' (List.eq_of_mem_replicate hb)
  · intro e; rw [e] at hb2; exact hb2' (List.eq_of_mem_replicate hb2)

/-- C35: every entry of the keys section is loaded. -/
theorem C35_every_key_loaded {f64 : F64Secs} {order : IterOrder} (ho : IsOrder order) {c c' : Config} {path : Str} {file : FileContent} {d : Doc}
    (hd : FileDoc file d) (h : c.load f64 order path file = (.ok (), c')) {n v : Str} (hs : Setting d "KEYS".toList n v) :
    ∃ u k t, IdText n u.raw ∧ Trimmed v t ∧ HexPairs t k.val ∧ c'.key u = some k := by
  obtain ⟨hc, -⟩ := C54_loaded_is_described ho hd h
  obtain ⟨x, k, hx, hk⟩ := hc.keys.valid n v hs
  obtain ⟨t, h1, h2⟩ := hk.1
  exact ⟨⟨x⟩, k, t, hx, h1, h2, (hc.keys.keys _ _).2 ⟨n, v, hs, hx, hk⟩⟩

example : exampleLoaded.key ⟨0xA1⟩ = some exampleKey := by decide
example : ((Config.new .Server).load noF64 id [] (.text ("[KEYS]\n1 = ".toList ++ List.replicate 64 'f'))).1 = .err ∧
    ((Config.new .Server).load noF64 id [] (.text ("[KEYS]\n1 = ".toList ++ List.replicate 64 '0'))).1 = .err ∧
    ((Config.new .Server).load noF64 id [] (.text ("[KEYS]\n1 = ".toList ++ List.replicate 62 '3'))).1 = .err ∧
    ((Config.new .Server).load noF64 id [] (.text ("[KEYS]\n1 = ".toList ++ List.replicate 64 '3'))).1 = .ok () := by decide +kernel

/-! ## C36: ports are unambiguous -/

theorem resourceIdByPort_sound {port : UInt16} {user : Option UserId} {l : List (ResourceId × Resource)} {id : ResourceId}
    (h : resourceIdByPort port user l = some id) :
    ∃ r, (id, r) ∈ l ∧ r.port = port ∧ ∀ u, user = some u → r.containsUser u = true := by
  induction l with
  | nil => cases h
  | cons e l ih =>
    obtain ⟨k, v⟩ := e
    simp only [resourceIdByPort] at h
    have rec' : resourceIdByPort port user l = some id → ∃ r, (id, r) ∈ (k, v) :: l ∧ r.port = port ∧ ∀ u, user = some u → r.containsUser u = true := by
      intro h
      obtain ⟨r, h1, h2⟩ := ih h
      exact ⟨r, by simp [h1], h2⟩
    by_cases hp : v.port = port
    · rw [if_pos hp] at h
      cases user with
      | none =>
        simp only [Option.some.injEq] at h
        subst h
        exact ⟨v, by simp, hp, by simp⟩
      | some u =>
        simp only at h
        by_cases hu : v.containsUser u = true
        · rw [if_pos hu] at h
          injection h with h; subst h
          exact ⟨v, by simp, hp, by rintro u' e; injection e with e; subst e; exact hu⟩
        · rw [if_neg hu] at h; exact rec' h
    · rw [if_neg hp] at h; exact rec' h

theorem resourceIdByPort_complete {port : UInt16} {user : Option UserId} {l : List (ResourceId × Resource)} {id : ResourceId} {r : Resource}
    (hm : (id, r) ∈ l) (hp : r.port = port) (hu : ∀ u, user = some u → r.containsUser u = true) :
    ∃ id', resourceIdByPort port user l = some id' := by
  induction l with
  | nil => cases hm
  | cons e l ih =>
    obtain ⟨k, v⟩ := e
    simp only [resourceIdByPort]
    rcases List.mem_cons.1 hm with e | hm
    · injection e with e1 e2
      subst e1 e2
      rw [if_pos hp]
      cases user with
      | none => exact ⟨_, rfl⟩
      | some u => simp only; rw [if_pos (hu u rfl)]; exact ⟨_, rfl⟩
    · split
      · split
        · split
          · exact ⟨_, rfl⟩
          · exact ih hm
        · exact ⟨_, rfl⟩
      · exact ih hm

/-- C36: no two resources of a loaded configuration have the same port. -/
theorem C36_ports_distinct {f64 : F64Secs} {order : IterOrder} (ho : IsOrder order) {c c' : Config} {path : Str} {file : FileContent} {d : Doc}
    (hd : FileDoc file d) (h : c.load f64 order path file = (.ok (), c')) {id id' : ResourceId} {r r' : Resource}
    (hr : c'.resource id = some r) (hr' : c'.resource id' = some r') (hp : r.port = r'.port) : id = id' := by
  obtain ⟨hc, -⟩ := C54_loaded_is_described ho hd h
  obtain ⟨n, v, h1, h2, h3⟩ := (hc.resources.resources _ _).1 hr
  obtain ⟨n', v', h1', h2', h3'⟩ := (hc.resources.resources _ _).1 hr'
  have := hc.resources.ports n v n' v' r r' h1 h1' h3 h3' hp
  subst this
  have := idText_unique h2 h2'
  cases id; cases id'; simp at this; rw [this]

/-- C36: the lookup by port finds the resource, in whatever order the map is iterated. -/
theorem C36_lookup_unambiguous {f64 : F64Secs} {order : IterOrder} (ho : IsOrder order) {c c' : Config} {path : Str} {file : FileContent} {d : Doc}
    (hd : FileDoc file d) (h : c.load f64 order path file = (.ok (), c')) {l : List (ResourceId × Resource)} (hl : l.Perm c'.resources)
    (port : UInt16) (user : Option UserId) (id : ResourceId) :
    resourceIdByPort port user l = some id ↔
      ∃ r, c'.resource id = some r ∧ r.port = port ∧ ∀ u, user = some u → r.containsUser u = true := by
  have hc := (C54_loaded_is_described ho hd h).1
  have key : ∀ e : ResourceId × Resource, e ∈ l ↔ c'.resource e.1 = some e.2 := by
    intro e
    rw [hl.mem_iff]
    exact (assocGet_eq_some_iff hc.resourcesNodup).symm
  constructor
  · intro h1
    obtain ⟨r, h2, h3, h4⟩ := resourceIdByPort_sound h1
    exact ⟨r, (key (id, r)).1 h2, h3, h4⟩
  · rintro ⟨r, h2, h3, h4⟩
    obtain ⟨id', h5⟩ := resourceIdByPort_complete ((key (id, r)).2 h2) h3 h4
    obtain ⟨r', h6, h7, -⟩ := resourceIdByPort_sound h5
    have := C36_ports_distinct ho hd h h2 ((key (id', r')).1 h6) (h3.trans h7.symm)
    rw [h5, this]

example : exampleLoaded.resourceIdByPort 53 none = some ⟨8⟩ ∧ exampleLoaded.resourceIdByPort 22 (some ⟨2⟩) = some ⟨7⟩ ∧
    exampleLoaded.resourceIdByPort 22 (some ⟨3⟩) = none := by decide
/-- Two resources with one port do not load. -/
example : ((Config.new .Server).load noF64 id [] (.text "[RESOURCES]\n1 = port: 22 / tcp\n2 = port: 0x16 / udp".toList)).1 = .err := by decide +kernel

/-! ## C37: no dependence on the order of hash maps -/

/-- C37: two iteration orders lead to the same outcome and the same settings. -/
theorem C37_order_irrelevant (f64 : F64Secs) {order order' : IterOrder} (ho : IsOrder order) (ho' : IsOrder order') (c : Config) (path : Str)
    (file : FileContent) :
    (c.load f64 order path file).1 = (c.load f64 order' path file).1 ∧
      SameConf (c.load f64 order path file).2 (c.load f64 order' path file).2 := by
  have refl : SameConf c c := ⟨rfl, rfl, rfl, rfl, rfl, rfl, fun _ => rfl, fun _ => rfl, rfl, rfl, rfl, rfl, rfl, rfl⟩
  unfold Config.load Config.loadIni
  cases hf : Ini.newFromFile file with
  | panic => exact absurd hf (newFromFile_not_panic file)
  | err =>
    dsimp only
    split
    · exact ⟨rfl, refl⟩
    · exact ⟨rfl, ⟨rfl, rfl, rfl, rfl, rfl, rfl, fun _ => rfl, fun _ => rfl, rfl, rfl, rfl, rfl, rfl, rfl⟩⟩
  | ok ini =>
    obtain ⟨d, -, hr⟩ := newFromFile_ok hf
    simp only
    cases hv : c.values f64 order ini with
    | panic => exact absurd hv (values_not_panic _ _ _ _)
    | ok c1 =>
      obtain ⟨h1, h2, -⟩ := values_sound ho hr hv
      obtain ⟨c2, h3⟩ := values_complete ho' hr h1 h2
      obtain ⟨h4, h5, -⟩ := values_sound ho' hr h3
      rw [h3]
      exact ⟨rfl, C54_determined hr.nodup (h2.trans h5.symm) (confOf_path h1) (confOf_path h4)⟩
    | err =>
      simp only
      cases hv' : c.values f64 order' ini with
      | panic => exact absurd hv' (values_not_panic _ _ _ _)
      | err => exact ⟨rfl, refl⟩
      | ok c2 =>
        obtain ⟨h1, h2, -⟩ := values_sound ho' hr hv'
        obtain ⟨c3, h3⟩ := values_complete ho hr h1 h2
        rw [hv] at h3; cases h3

example : ((Config.new .Server).load noF64 List.reverse [] (.text exampleText)).2.resources.map (·.1) = [⟨8⟩, ⟨7⟩] ∧
    ((Config.new .Server).load noF64 id [] (.text exampleText)).2.resources.map (·.1) = [⟨7⟩, ⟨8⟩] := by decide +kernel

/-! ## C40: duplicate definitions -/

/-- C40 as stated, for keys: no id is defined by two lines of the section. -/
def C40_statement : Prop :=
  ∀ (f64 : F64Secs) (order : IterOrder) (c c' : Config) (path : Str) (file : FileContent) (d : Doc), IsOrder order → FileDoc file d →
    c.load f64 order path file = (.ok (), c') →
    ∀ sect, (sect = "KEYS".toList ∨ sect = "RESOURCES".toList) → ∀ as, (sect, as) ∈ d →
      as.Pairwise (fun e e' => ¬ ∃ x, IdText e.1 x ∧ IdText e'.1 x)

/-- C40, the part that is true: two definitions of the same id under different spellings are an error.
(Missing: with the same spelling the later line silently replaces the earlier one, see `C40_negation`.) -/
theorem C40_duplicates_rejected_partial {f64 : F64Secs} {order : IterOrder} (ho : IsOrder order) {c c' : Config} {path : Str} {file : FileContent}
    {d : Doc} (hd : FileDoc file d) (h : c.load f64 order path file = (.ok (), c'))
    {sect : Str} (hsect : sect = "KEYS".toList ∨ sect = "RESOURCES".toList) {as : List (Str × Str)} (has : (sect, as) ∈ d) :
    as.Pairwise (fun e e' => e.1 ≠ e'.1 → ¬ ∃ x, IdText e.1 x ∧ IdText e'.1 x) := by
  obtain ⟨hc, -⟩ := C54_loaded_is_described ho hd h
  have hasVal : ∀ e ∈ as, ∃ v, Setting d sect e.1 v := by
    intro e he
    suffices hl : ∀ as : List (Str × Str), e ∈ as → ∃ v, LastValue as e.1 v by
      obtain ⟨v, hv⟩ := hl as he
      exact ⟨v, as, has, hv⟩
    clear he has
    intro as he
    induction as with
    | nil => cases he
    | cons x as ih =>
      by_cases hin : ∃ f ∈ as, f.1 = e.1
      · obtain ⟨f, hf, hfe⟩ := hin
        have : ∃ v, LastValue as e.1 v := by
          cases hg : assocGet (foldSet [] as) e.1 with
          | some v => exact ⟨v, lastValue_iff.2 hg⟩
          | none =>
            exfalso
            clear ih
            have : ∀ (l : List (Str × Str)) (o : List (Str × Str)), (∃ f ∈ l, f.1 = e.1) → assocGet (foldSet o l) e.1 ≠ none := by
              intro l
              induction l with
              | nil => rintro o ⟨f, hf, -⟩; cases hf
              | cons y l ih2 =>
                rintro o ⟨f, hf, hfe⟩
                by_cases hl : ∃ f ∈ l, f.1 = e.1
                · exact ih2 _ hl
                · have hy : y.1 = e.1 := by
                    rcases List.mem_cons.1 hf with rfl | hf
                    · exact hfe
                    · exact absurd ⟨f, hf, hfe⟩ hl
                  have : assocGet (foldSet o (y :: l)) e.1 = some y.2 := by
                    rw [foldSet_get]
                    left
                    refine ⟨[], l, ?_, fun g hg hge => hl ⟨g, hg, hge⟩⟩
                    rw [← hy]; rfl
                  rw [this]; simp
            exact this as [] ⟨f, hf, hfe⟩ hg
        obtain ⟨v, a, b, rfl, hb⟩ := this
        exact ⟨v, x :: a, b, rfl, hb⟩
      · rcases List.mem_cons.1 he with rfl | he
        · exact ⟨e.2, [], as, rfl, fun f hf hfe => hin ⟨f, hf, hfe⟩⟩
        · exact absurd ⟨e, he, rfl⟩ hin
  have key : ∀ e ∈ as, ∀ e' ∈ as, e.1 ≠ e'.1 → ¬ ∃ x, IdText e.1 x ∧ IdText e'.1 x := by
    rintro e he e' he' hne ⟨x, hx, hx'⟩
    obtain ⟨v, hv⟩ := hasVal e he
    obtain ⟨v', hv'⟩ := hasVal e' he'
    rcases hsect with rfl | rfl
    · exact hne (hc.keys.distinct _ _ _ _ _ hv hv' hx hx')
    · exact hne (hc.resources.distinct _ _ _ _ _ hv hv' hx hx')
  exact List.Pairwise.imp_of_mem (R := fun _ _ => True) (fun ha hb _ => key _ ha _ hb) (List.pairwise_of_forall (fun _ _ => trivial))

/-- A file with two definitions of the same resource, spelled the same: the first is restricted to one user, the second open to all. -/
def duplicateText : Str := "[RESOURCES]\n7 = port: 22 / users: 1\n7 = port: 22\n".toList

/-- C40 is not true: the second line of `duplicateText` silently lifts the restriction of the first. -/
theorem C40_negation : ¬ C40_statement := by
  intro h
  have hl : (Config.new .Server).load noF64 id [] (.text duplicateText) =
      (.ok (), { Config.new .Server with
        path := some [], nftExe := "nft".toList, resources := [(⟨7⟩, { port := 22, tcp := true, udp := false, users := [] })] }) := by decide +kernel
  have hd : FileDoc (.text duplicateText)
      [("RESOURCES".toList, [("7".toList, " port: 22 / users: 1".toList), ("7".toList, " port: 22".toList)])] := by
    refine ⟨_, rfl, ["[RESOURCES]".toList, "7 = port: 22 / users: 1".toList, "7 = port: 22".toList], textLines_iff.2 (by decide +kernel), ?_, by decide⟩
    refine .sect (b := ["7 = port: 22 / users: 1".toList, "7 = port: 22".toList]) (ls := [])
      ⟨[], [], by decide, by simp [Blank], by simp [Blank], by decide⟩ ?_ .nil
    refine .assign ⟨[], [' '], by decide, by simp [Blank], by simp [Blank, isWhitespace], by decide, ⟨'7', by decide⟩, ⟨'7', by decide⟩⟩
      (.assign ⟨[], [' '], by decide, by simp [Blank], by simp [Blank, isWhitespace], by decide, ⟨'7', by decide⟩, ⟨'7', by decide⟩⟩ .nil)
  have := h noF64 id _ _ _ _ _ id_order hd hl _ (.inr rfl) _ (.head _)
  rw [List.pairwise_cons] at this
  refine this.1 ("7".toList, " port: 22".toList) (by simp) ⟨7, ?_, ?_⟩ <;> exact parseId_iff.1 (by decide +kernel)

/-- Different spellings of one id are rejected. -/
example : ((Config.new .Server).load noF64 id [] (.text "[RESOURCES]\n7 = port: 22 / users: 1\n07 = port: 23\n".toList)).1 = .err := by decide +kernel

/-! ## C41: malformed files -/

/-- C41 as stated: what does not describe a configuration is reported. -/
def C41_statement : Prop :=
  ∀ (f64 : F64Secs) (order : IterOrder) (c : Config) (path : Str) (s : Str), IsOrder order →
    (¬ ∃ d c', IniText s d ∧ ConfOf f64 d c' ∧ c'.variant = c.variant) → (c.load f64 order path (.text s)).1 = .err

/-- C41, the part that is true: the server reports every malformed file, the client every well-formed file with a bad value.
(Missing: the client ignores files that are not well-formed, see `C41_negation`.) -/
theorem C41_malformed_reported_partial {f64 : F64Secs} {order : IterOrder} (ho : IsOrder order) (c : Config) (path : Str) (file : FileContent)
    (hf : c.variant = .Server ∨ ∃ d, FileDoc file d)
    (hbad : ¬ ∃ d c', FileDoc file d ∧ ConfOf f64 d c' ∧ c'.variant = c.variant) : (c.load f64 order path file).1 = .err := by
  obtain ⟨h1, h2⟩ := C33_failure_changes_nothing f64 order c path file
  cases hl : (c.load f64 order path file).1 with
  | err => rfl
  | panic => exact absurd hl h1
  | ok u =>
    exfalso
    have h : c.load f64 order path file = (.ok (), (c.load f64 order path file).2) := by rw [← hl]
    obtain ⟨d, hd, hc, -⟩ := C33_success_all_new_partial ho h hf
    exact hbad ⟨d, _, hd, hc, (C54_loaded_is_described ho hd h).2.1⟩

/-- C41 is not true: the client takes a file with a line outside of any section for an empty one and reports success. -/
theorem C41_negation : ¬ C41_statement := by
  intro h
  have := h noF64 id (Config.new .Client) [] "default-user = 5".toList id_order ?_
  · revert this; decide +kernel
  · rintro ⟨d, c', hd, -⟩
    obtain ⟨ini, h1, -⟩ := parseStr_complete hd
    have h2 : (match Ini.parseStr "default-user = 5".toList with | .err => true | _ => false) = true := by decide +kernel
    rw [h1] at h2; cases h2

example : ∀ s ∈ ["debug = no", "[GENERAL", "[]", "[A]\n[A]", "[A]\nx", "[A]\n = 1", "[GENERAL]\nport = +5", "[GENERAL]\nport = 99999",
      "[GENERAL]\nseccomp = killl", "[NFTABLES]\nfamily = bridge", "[KEYS]\n1 = 00"],
    ((Config.new .Server).load noF64 id [] (.text s.toList)).1 = .err := by decide +kernel
example : ((Config.new .Client).load noF64 id [] (.text "[CLIENT]\ndefault-user = 5".toList)).2.defaultUser = ⟨5⟩ ∧
    ((Config.new .Client).load noF64 id [] (.text "default-user = 5".toList)) = (.ok (), { Config.new .Client with path := some [] }) := by
  decide +kernel

/-! ## C55: unknown names -/

/-- The sections and options the program knows. -/
def knownName (sect opt : Str) : Bool :=
  sect = "KEYS".toList || sect = "RESOURCES".toList ||
    (sect = "GENERAL".toList && ["debug", "port", "control-timeout", "control-error-policy", "seccomp"].any (fun o => opt = o.toList)) ||
    (sect = "CLIENT".toList && opt = "default-user".toList) ||
    (sect = "NFTABLES".toList && ["exe", "family", "table", "chain-input", "timeout"].any (fun o => opt = o.toList))

/-- C55 as stated: a file with an unknown option does not load. -/
def C55_statement : Prop :=
  ∀ (f64 : F64Secs) (order : IterOrder) (path : Str) (file : FileContent) (d : Doc) (sect opt v : Str), IsOrder order → FileDoc file d →
    Setting d sect opt v → knownName sect opt = false → ((Config.new .Server).load f64 order path file).1 = .err

/-- C55 is not true: a misspelled option is ignored, here the one that would switch on the seccomp filter. -/
theorem C55_negation : ¬ C55_statement := by
  intro h
  have hd : FileDoc (.text "[GENERAL]\nSeccomp = kill".toList) [("GENERAL".toList, [("Seccomp".toList, " kill".toList)])] := by
    refine ⟨_, rfl, ["[GENERAL]".toList, "Seccomp = kill".toList], textLines_iff.2 (by decide +kernel), ?_, by decide⟩
    exact .sect (b := ["Seccomp = kill".toList]) (ls := []) ⟨[], [], by decide, by simp [Blank], by simp [Blank], by decide⟩
      (.assign ⟨[], [' '], by decide, by simp [Blank], by simp [Blank, isWhitespace], by decide, ⟨'S', by decide⟩, ⟨'p', by decide⟩⟩ .nil) .nil
  have := h noF64 id [] _ _ "GENERAL".toList "Seccomp".toList " kill".toList id_order hd ⟨_, by simp, [], [], rfl, by simp⟩ (by decide)
  revert this; decide +kernel

/-- C55, what happens instead: an assignment to an unknown name has no influence at all (two documents that agree on the known names describe
the same configurations). -/
theorem C55_unknown_names_ignored_partial {f64 : F64Secs} {d d' : Doc} {c : Config}
    (hk : ∀ sect opt v, knownName sect opt = true → (Setting d sect opt v ↔ Setting d' sect opt v)) : ConfOf f64 d c ↔ ConfOf f64 d' c := by
  have one : ∀ d d' : Doc, (∀ sect opt v, knownName sect opt = true → (Setting d sect opt v ↔ Setting d' sect opt v)) →
      ConfOf f64 d c → ConfOf f64 d' c := by
    intro d d' hk h
    have giv : ∀ {α : Type} {sect opt : String} {P : Str → α → Prop} {dflt x : α}, knownName sect.toList opt.toList = true →
        Given d sect opt P dflt x → Given d' sect opt P dflt x := by
      intro α sect opt P dflt x hn hg
      rcases hg with ⟨v, h1, h2⟩ | ⟨h1, h2⟩
      · exact .inl ⟨v, (hk _ _ _ hn).1 h1, h2⟩
      · exact .inr ⟨fun ⟨v, hv⟩ => h1 ⟨v, (hk _ _ _ hn).2 hv⟩, h2⟩
    have givIf : ∀ {α : Type} {sect opt : String} {P : Str → α → Prop} {dflt dflt' x : α} {w : ConfigVariant}, knownName sect.toList opt.toList = true →
        (if c.variant = w then Given d sect opt P dflt x else x = dflt') → (if c.variant = w then Given d' sect opt P dflt x else x = dflt') := by
      intro α sect opt P dflt dflt' x w hn hg
      split at hg <;> rename_i hw
      · rw [if_pos hw]; exact giv hn hg
      · rw [if_neg hw]; exact hg
    have hK : ∀ n v, Setting d "KEYS".toList n v ↔ Setting d' "KEYS".toList n v := fun n v => hk _ _ _ (by simp [knownName])
    have hR : ∀ n v, Setting d "RESOURCES".toList n v ↔ Setting d' "RESOURCES".toList n v := fun n v => hk _ _ _ (by simp [knownName])
    refine ⟨giv (by decide) h.debug, giv (by decide) h.port, giv (by decide) h.controlTimeout, giv (by decide) h.controlErrorPolicy,
      giv (by decide) h.seccomp, ⟨?_, ?_, ?_⟩, h.keysNodup, ⟨?_, ?_, ?_, ?_⟩, h.resourcesNodup, givIf (by decide) h.defaultUser,
      givIf (by decide) h.nftExe, givIf (by decide) h.nftFamily, givIf (by decide) h.nftTable, givIf (by decide) h.nftChainInput,
      givIf (by decide) h.nftTimeout⟩
    · simpa only [hK] using h.keys.valid
    · simpa only [hK] using h.keys.distinct
    · simpa only [hK] using h.keys.keys
    · simpa only [hR] using h.resources.valid
    · simpa only [hR] using h.resources.distinct
    · simpa only [hR] using h.resources.ports
    · simpa only [hR] using h.resources.resources
  exact ⟨one d d' hk, one d' d (fun s o v h => (hk s o v h).symm)⟩

example : ((Config.new .Server).load noF64 id [] (.text "[GENERAL]\nSeccomp = kill\n[Unknown]\nx = y".toList)).2.seccomp = .Off := by decide +kernel

/-! ## C12: loaded resources have a protocol -/

/-- C12: every loaded configuration satisfies the condition under which no peer can make the session panic. -/
theorem C12_loaded_config_has_proto {f64 : F64Secs} {order : IterOrder} (ho : IsOrder order) {c c' : Config} {path : Str} {file : FileContent} {d : Doc}
    (hd : FileDoc file d) (h : c.load f64 order path file = (.ok (), c')) : AllHaveProto c' := by
  obtain ⟨hc, -⟩ := C54_loaded_is_described ho hd h
  intro id r hr
  obtain ⟨n, v, -, -, items, -, -, -, -, h4, h5⟩ := (hc.resources.resources id r).1 hr
  by_cases hu : HasWord items "udp"
  · exact .inr (h5.2 hu)
  · exact .inl (h4.2 (.inr hu))

end Letmein.Props
