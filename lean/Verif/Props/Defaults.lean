import Verif.Props.ConfWrite
import Verif.Props.EndToEnd

/-!
# C120: leaving an option out means its documented default

`/repo/doc/CONFIGURATION.md` gives for seven options the value that is used if the option is absent, and says of three options of the server that they
have no default and must be specified. The tables below are copied from that document.
-/

namespace Letmein.Spec
open Letmein

/-- `/repo/doc/CONFIGURATION.md:33,52,83,116,136,266,317`: "This option defaults to `…`, if it is absent from the configuration." -/
def docDefaults : List (String × String × String) :=
  [("GENERAL", "debug", "false"), ("GENERAL", "port", "5800"), ("GENERAL", "control-timeout", "5.0"), ("GENERAL", "control-error-policy", "always"),
   ("GENERAL", "seccomp", "off"), ("NFTABLES", "exe", "nft"), ("NFTABLES", "timeout", "600")]

/-- `d'` has the settings of `d`, and in addition the option `o` of the section `n`, which `d` does not have. -/
structure Adds (d d' : Doc) (n o v : Str) : Prop where
  absent : ¬ ∃ w, Setting d n o w
  settings : ∀ n' o' w, Setting d' n' o' w ↔ Setting d n' o' w ∨ (n' = n ∧ o' = o ∧ w = v)

end Letmein.Spec

namespace Letmein.Props
open Letmein Prog Spec

theorem given_adds {α : Type} {d d' : Doc} {n o v : Str} (h : Adds d d' n o v) {N O : String} {P : Str → α → Prop} {dflt : α}
    (hv : N.toList = n → O.toList = o → ∀ x, P v x ↔ x = dflt) (x : α) : Given d N O P dflt x ↔ Given d' N O P dflt x := by
  unfold Given
  by_cases e : N.toList = n ∧ O.toList = o
  · obtain ⟨rfl, rfl⟩ := e
    constructor
    · rintro (⟨w, h1, _⟩ | ⟨_, h2⟩)
      · exact absurd ⟨w, h1⟩ h.absent
      · exact .inl ⟨v, (h.settings _ _ _).2 (.inr ⟨rfl, rfl, rfl⟩), (hv rfl rfl x).2 h2⟩
    · rintro (⟨w, h1, h2⟩ | ⟨h1, _⟩)
      · rcases (h.settings _ _ _).1 h1 with h3 | ⟨_, _, rfl⟩
        · exact absurd ⟨w, h3⟩ h.absent
        · exact .inr ⟨h.absent, (hv rfl rfl x).1 h2⟩
      · exact absurd ⟨v, (h.settings _ _ _).2 (.inr ⟨rfl, rfl, rfl⟩)⟩ h1
  · have hs : ∀ w, Setting d' N.toList O.toList w ↔ Setting d N.toList O.toList w := fun w => by
      rw [h.settings]
      exact or_iff_left fun h1 => e ⟨h1.1, h1.2.1⟩
    simp only [hs]

theorem setting_adds {d d' : Doc} {n o v : Str} (h : Adds d d' n o v) {N : Str} (hn : N ≠ n) (o' w : Str) : Setting d' N o' w ↔ Setting d N o' w := by
  rw [h.settings]
  exact or_iff_left fun h1 => hn h1.1

/-- What a value has to mean to be the default of the option. -/
structure IsDefault (f64 : F64Secs) (n o v : Str) : Prop where
  section_ : n = "GENERAL".toList ∨ n = "NFTABLES".toList
  debug : "GENERAL".toList = n → "debug".toList = o → ∀ x, BoolText v x ↔ x = false
  port : "GENERAL".toList = n → "port".toList = o → ∀ x, PortText v x ↔ x = { port := PORT, tcp := true, udp := false }
  controlTimeout : "GENERAL".toList = n → "control-timeout".toList = o → ∀ x, DurationText f64 v x ↔ x = 5000000000
  controlErrorPolicy : "GENERAL".toList = n → "control-error-policy".toList = o → ∀ x, PolicyText v x ↔ x = .Always
  seccomp : "GENERAL".toList = n → "seccomp".toList = o → ∀ x, SeccompText v x ↔ x = .Off
  exe : "NFTABLES".toList = n → "exe".toList = o → ∀ x, Trimmed v x ↔ x = "nft".toList
  family : ¬ ("NFTABLES".toList = n ∧ "family".toList = o)
  table : ¬ ("NFTABLES".toList = n ∧ "table".toList = o)
  chainInput : ¬ ("NFTABLES".toList = n ∧ "chain-input".toList = o)
  timeout : "NFTABLES".toList = n → "timeout".toList = o → ∀ x, DurationText f64 v x ↔ x = 600000000000

theorem confOf_adds {f64 : F64Secs} {d d' : Doc} {n o v : Str} (h : Adds d d' n o v) (hv : IsDefault f64 n o v) (c : Config) :
    ConfOf f64 d c ↔ ConfOf f64 d' c := by
  have hne : ∀ s : String, s.toList ≠ "GENERAL".toList → s.toList ≠ "NFTABLES".toList → s.toList ≠ n := by
    intro s h1 h2 h3
    rcases hv.section_ with h4 | h4
    · exact h1 (h3.trans h4)
    · exact h2 (h3.trans h4)
  have hK := fun o' w => setting_adds h (hne "KEYS" (by decide) (by decide)) o' w
  have hR := fun o' w => setting_adds h (hne "RESOURCES" (by decide) (by decide)) o' w
  have hC := hne "CLIENT" (by decide) (by decide)
  have keys : KeysOf d c.key ↔ KeysOf d' c.key := by
    constructor <;> rintro ⟨h1, h2, h3⟩ <;> exact ⟨by simpa only [hK] using h1, by simpa only [hK] using h2, by simpa only [hK] using h3⟩
  have ress : ResourcesOf d c.resource ↔ ResourcesOf d' c.resource := by
    constructor <;> rintro ⟨h1, h2, h3, h4⟩ <;>
      exact ⟨by simpa only [hR] using h1, by simpa only [hR] using h2, by simpa only [hR] using h3, by simpa only [hR] using h4⟩
  have e1 := given_adds h hv.debug c.debug
  have e2 := given_adds h hv.port c.port
  have e3 := given_adds h hv.controlTimeout c.controlTimeout
  have e4 := given_adds h hv.controlErrorPolicy c.controlErrorPolicy
  have e5 := given_adds h hv.seccomp c.seccomp
  have e6 := given_adds h (N := "CLIENT") (O := "default-user") (P := fun s (u : UserId) => IdText s u.raw) (dflt := ⟨0⟩)
    (fun h1 => absurd h1 hC) c.defaultUser
  have e7 := given_adds h hv.exe c.nftExe
  have e8 := given_adds h (N := "NFTABLES") (O := "family") (P := FamilyText) (dflt := []) (fun h1 h2 => absurd ⟨h1, h2⟩ hv.family) c.nftFamily
  have e9 := given_adds h (N := "NFTABLES") (O := "table") (P := Trimmed) (dflt := []) (fun h1 h2 => absurd ⟨h1, h2⟩ hv.table) c.nftTable
  have e10 := given_adds h (N := "NFTABLES") (O := "chain-input") (P := Trimmed) (dflt := []) (fun h1 h2 => absurd ⟨h1, h2⟩ hv.chainInput)
    c.nftChainInput
  have e11 := given_adds h hv.timeout c.nftTimeout
  constructor
  · rintro ⟨h1, h2, h3, h4, h5, h6, h7, h8, h9, h10, h11, h12, h13, h14, h15⟩
    exact ⟨e1.1 h1, e2.1 h2, e3.1 h3, e4.1 h4, e5.1 h5, keys.1 h6, h7, ress.1 h8, h9, by rw [← e6]; exact h10, by rw [← e7]; exact h11,
      by rw [← e8]; exact h12, by rw [← e9]; exact h13, by rw [← e10]; exact h14, by rw [← e11]; exact h15⟩
  · rintro ⟨h1, h2, h3, h4, h5, h6, h7, h8, h9, h10, h11, h12, h13, h14, h15⟩
    exact ⟨e1.2 h1, e2.2 h2, e3.2 h3, e4.2 h4, e5.2 h5, keys.2 h6, h7, ress.2 h8, h9, by rw [e6]; exact h10, by rw [e7]; exact h11,
      by rw [e8]; exact h12, by rw [e9]; exact h13, by rw [e10]; exact h14, by rw [e11]; exact h15⟩

/-- Loading is determined by the configuration that the document describes. -/
theorem load_same_confOf {f64 : F64Secs} {order order' : IterOrder} (ho : IsOrder order) (ho' : IsOrder order') (c : Config) (path : Str)
    {file file' : FileContent} {d d' : Doc} (hd : FileDoc file d) (hd' : FileDoc file' d') (h : ∀ c, ConfOf f64 d c ↔ ConfOf f64 d' c) :
    (c.load f64 order path file).1 = (c.load f64 order' path file').1 ∧
      SameConf (c.load f64 order path file).2 (c.load f64 order' path file').2 := by
  have n1 := C33_failure_changes_nothing f64 order c path file
  have n2 := C33_failure_changes_nothing f64 order' c path file'
  cases e : c.load f64 order path file with
  | mk r c1 =>
    cases e' : c.load f64 order' path file' with
    | mk r' c2 =>
      rw [e] at n1
      rw [e'] at n2
      simp only at n1 n2 ⊢
      cases r with
      | panic => exact absurd rfl n1.1
      | ok u =>
        obtain ⟨h1, h2, _⟩ := C54_loaded_is_described ho hd e
        obtain ⟨c3, h3, h4⟩ := C54_described_is_loaded (path := path) ho' hd' ((h c1).1 h1) h2
        rw [e'] at h3
        injection h3 with h3 h5
        subst h3 h5
        exact ⟨rfl, sameConf_symm h4⟩
      | err =>
        cases r' with
        | panic => exact absurd rfl n2.1
        | ok u =>
          obtain ⟨h1, h2, _⟩ := C54_loaded_is_described ho' hd' e'
          obtain ⟨c3, h3, _⟩ := C54_described_is_loaded (path := path) ho hd ((h c2).2 h1) h2
          rw [e] at h3
          injection h3 with h3 _
          cases h3
        | err =>
          rw [n1.2 (by simp), n2.2 (by simp)]
          exact ⟨rfl, sameConf_refl c⟩

theorem ok_eq_comm {α : Type} {r : R α} {P : α → Prop} {a : α} (hr : r = .ok a) (h : ∀ x, r = .ok x ↔ P x) (x : α) : P x ↔ x = a := by
  rw [← h, hr]
  constructor
  · rintro h1; injection h1 with h1; exact h1.symm
  · rintro rfl; rfl

theorem isDefault_doc {n o v : String} (h : (n, o, v) ∈ docDefaults) : IsDefault f64Secs n.toList o.toList v.toList := by
  simp only [docDefaults, List.mem_cons, Prod.mk.injEq, List.not_mem_nil, or_false] at h
  rcases h with ⟨rfl, rfl, rfl⟩ | ⟨rfl, rfl, rfl⟩ | ⟨rfl, rfl, rfl⟩ | ⟨rfl, rfl, rfl⟩ | ⟨rfl, rfl, rfl⟩ | ⟨rfl, rfl, rfl⟩ | ⟨rfl, rfl, rfl⟩
  · refine ⟨by decide,
      fun _ _ => ok_eq_comm (r := parseBool "false".toList) (by decide +kernel) fun _ => parseBool_iff, ?_, ?_, ?_, ?_, ?_, ?_, ?_, ?_, ?_⟩ <;>
      first | decide | exact fun h1 => absurd h1 (by decide) | exact fun _ h2 => absurd h2 (by decide)
  · refine ⟨by decide, ?_,
      fun _ _ => ok_eq_comm (r := parsePort "5800".toList) (by decide +kernel) fun _ => parsePort_iff, ?_, ?_, ?_, ?_, ?_, ?_, ?_, ?_⟩ <;>
      first | decide | exact fun h1 => absurd h1 (by decide) | exact fun _ h2 => absurd h2 (by decide)
  · refine ⟨by decide, ?_, ?_,
      fun _ _ => ok_eq_comm (r := parseDuration f64Secs "5.0".toList) (by decide +kernel) fun _ => parseDuration_iff, ?_, ?_, ?_, ?_, ?_, ?_, ?_⟩ <;>
      first | decide | exact fun h1 => absurd h1 (by decide) | exact fun _ h2 => absurd h2 (by decide)
  · refine ⟨by decide, ?_, ?_, ?_,
      fun _ _ => ok_eq_comm (r := ErrorPolicy.fromStr "always".toList) (by decide +kernel) fun _ => errorPolicy_iff, ?_, ?_, ?_, ?_, ?_, ?_⟩ <;>
      first | decide | exact fun h1 => absurd h1 (by decide) | exact fun _ h2 => absurd h2 (by decide)
  · refine ⟨by decide, ?_, ?_, ?_, ?_,
      fun _ _ => ok_eq_comm (r := Seccomp.fromStr "off".toList) (by decide +kernel) fun _ => seccomp_iff, ?_, ?_, ?_, ?_, ?_⟩ <;>
      first | decide | exact fun h1 => absurd h1 (by decide) | exact fun _ h2 => absurd h2 (by decide)
  · refine ⟨by decide, ?_, ?_, ?_, ?_, ?_, fun _ _ x => ?_, ?_, ?_, ?_, ?_⟩
    rotate_left 5
    · rw [trimmed_iff]
      rw [show trim "nft".toList = "nft".toList by decide +kernel]
      exact eq_comm
    all_goals first | decide | exact fun h1 => absurd h1 (by decide) | exact fun _ h2 => absurd h2 (by decide)
  · refine ⟨by decide, ?_, ?_, ?_, ?_, ?_, ?_, ?_, ?_, ?_,
      fun _ _ => ok_eq_comm (r := parseDuration f64Secs "600".toList) (by decide +kernel) fun _ => parseDuration_iff⟩ <;>
      first | decide | exact fun h1 => absurd h1 (by decide) | exact fun _ h2 => absurd h2 (by decide)

/-- **C120**. Leaving out an option that has a documented default is the same as writing the default: the file without it and the file with it are
both refused, or both loaded with the same configuration. -/
theorem C120_default {order order' : IterOrder} (ho : IsOrder order) (ho' : IsOrder order') (c : Config) (path : Str)
    {file file' : FileContent} {d d' : Doc} (hd : FileDoc file d) (hd' : FileDoc file' d') {n o v : String} (hm : (n, o, v) ∈ docDefaults)
    (h : Adds d d' n.toList o.toList v.toList) :
    (c.load f64Secs order path file).1 = (c.load f64Secs order' path file').1 ∧
      SameConf (c.load f64Secs order path file).2 (c.load f64Secs order' path file').2 :=
  load_same_confOf ho ho' c path hd hd' (confOf_adds h (isDefault_doc hm))

theorem given_nonempty {d : Doc} {n o : String} {P : Str → Str → Prop} {x : Str} (h : Given d n o P [] x)
    (hx : x ≠ []) : ∃ v, Setting d n.toList o.toList v ∧ P v x := by
  rcases h with h | ⟨_, rfl⟩
  · exact h
  · exact absurd rfl hx

/-- C120: the three options without a default. With a configuration from a file, `letmeinfwd` gets past its start if and only if `nft` works and the
file sets the family and sets the table and the chain to a text that is not blank. -/
theorem C120_required {f64 : F64Secs} {order : IterOrder} (ho : IsOrder order) {c c' : Config} {path : Str} {file : FileContent} {d : Doc}
    (hd : FileDoc file d) (hv : c.variant = .Server) (hl : c.load f64 order path file = (.ok (), c')) (k : Kernel) (nftOk : Bool) :
    (∃ s, fwdStart c' k nftOk = some s) ↔ nftOk = true ∧ (∃ v, Setting d "NFTABLES".toList "family".toList v) ∧
      (∃ v t, Setting d "NFTABLES".toList "table".toList v ∧ Trimmed v t ∧ t ≠ []) ∧
      (∃ v t, Setting d "NFTABLES".toList "chain-input".toList v ∧ Trimmed v t ∧ t ≠ []) := by
  obtain ⟨h1, h2, _⟩ := C54_loaded_is_described ho hd hl
  have hs : c'.variant = .Server := h2.trans hv
  have hf := h1.nftFamily
  have ht := h1.nftTable
  have hc := h1.nftChainInput
  rw [if_pos hs] at hf ht hc
  rw [C23_start_iff]
  refine and_congr_right fun _ => ?_
  constructor
  · rintro ⟨n, h3⟩
    have hfn : c'.nftFamily ≠ [] := by rw [h3.family]; cases n.family <;> decide
    obtain ⟨v, h4, _⟩ := given_nonempty hf hfn
    obtain ⟨v', h5, h6⟩ := given_nonempty ht (by rw [h3.table]; exact h3.tableNonempty)
    obtain ⟨v'', h7, h8⟩ := given_nonempty hc (by rw [h3.chain]; exact h3.chainNonempty)
    exact ⟨⟨v, h4⟩, ⟨v', _, h5, h6, by rw [h3.table]; exact h3.tableNonempty⟩, ⟨v'', _, h7, h8, by rw [h3.chain]; exact h3.chainNonempty⟩⟩
  · rintro ⟨⟨v, h4⟩, ⟨v', t, h5, h6, h7⟩, ⟨v'', t', h8, h9, h10⟩⟩
    have nd := fileDoc_nodup hd
    have one : ∀ {o v w}, Setting d "NFTABLES".toList o v → Setting d "NFTABLES".toList o w → v = w := fun a b => setting_unique nd a b
    have ht' : c'.nftTable ≠ [] := by
      rcases ht with ⟨w, a, b⟩ | ⟨a, _⟩
      · rw [one a h5] at b
        rw [trimmed_iff] at b h6
        rw [← b, h6]; exact h7
      · exact absurd ⟨_, h5⟩ a
    have hc' : c'.nftChainInput ≠ [] := by
      rcases hc with ⟨w, a, b⟩ | ⟨a, _⟩
      · rw [one a h8] at b
        rw [trimmed_iff] at b h9
        rw [← b, h9]; exact h10
      · exact absurd ⟨_, h8⟩ a
    rcases hf with ⟨w, _, _, h11⟩ | ⟨a, _⟩
    · rcases h11 with e | e | e
      · exact ⟨⟨.INet, _, _⟩, ⟨e, rfl, rfl, ht', hc'⟩⟩
      · exact ⟨⟨.IP, _, _⟩, ⟨e, rfl, rfl, ht', hc'⟩⟩
      · exact ⟨⟨.IP6, _, _⟩, ⟨e, rfl, rfl, ht', hc'⟩⟩
    · exact absurd ⟨_, h4⟩ a

/-! ## Examples -/

/-- The tidy text of C94 and one more line. -/
def saidText : Str := "[GENERAL]\nport=5801/udp\ndebug=yes\nseccomp=off\n".toList

def saidDoc : Doc := [("GENERAL".toList, [("port".toList, "5801/udp".toList), ("debug".toList, "yes".toList), ("seccomp".toList, "off".toList)])]

theorem said_doc : FileDoc (.text saidText) saidDoc := by
  refine ⟨_, rfl, _, textLines_iff.2 rfl, ?_, by decide⟩
  have e : lines saidText = "[GENERAL]".toList :: ["port=5801/udp".toList, "debug=yes".toList, "seccomp=off".toList] ++ [] := by decide +kernel
  rw [e]
  refine .sect ⟨[], [], rfl, by decide, by decide, by decide⟩ (.assign ⟨[], [], rfl, by decide, by decide, by decide, ⟨'p', by decide⟩, ⟨'t', by decide⟩⟩
    (.assign ⟨[], [], rfl, by decide, by decide, by decide, ⟨'d', by decide⟩, ⟨'g', by decide⟩⟩
    (.assign ⟨[], [], rfl, by decide, by decide, by decide, ⟨'s', by decide⟩, ⟨'p', by decide⟩⟩ .nil))) .nil

theorem said_adds : Adds tidyDoc saidDoc "GENERAL".toList "seccomp".toList "off".toList := by
  have key : ∀ {as : List (Str × Str)}, (as.map (·.1)).Nodup → ∀ n' o' w, Setting [("GENERAL".toList, as)] n' o' w ↔
      n' = "GENERAL".toList ∧ (o', w) ∈ as := by
    intro as hn n' o' w
    unfold Setting
    constructor
    · rintro ⟨as', h1, h2⟩
      rw [List.mem_singleton, Prod.mk.injEq] at h1
      obtain ⟨rfl, rfl⟩ := h1
      exact ⟨rfl, (lastValue_nodup hn).1 h2⟩
    · rintro ⟨rfl, h⟩
      exact ⟨as, .head _, (lastValue_nodup hn).2 h⟩
  refine ⟨?_, fun n' o' w => ?_⟩
  · rintro ⟨w, h⟩
    rw [tidyDoc, key (by decide)] at h
    have : "seccomp".toList ∈ [("port".toList, "5801/udp".toList), ("debug".toList, "yes".toList)].map (·.1) := List.mem_map_of_mem (f := (·.1)) h.2
    exact absurd this (by decide)
  · rw [saidDoc, tidyDoc, key (by decide), key (by decide)]
    simp only [List.mem_cons, Prod.mk.injEq, List.not_mem_nil, or_false]
    constructor
    · rintro ⟨h1, h2 | h2 | h2⟩
      · exact .inl ⟨h1, .inl h2⟩
      · exact .inl ⟨h1, .inr h2⟩
      · exact .inr ⟨h1, h2⟩
    · rintro (⟨h1, h2 | h2⟩ | ⟨h1, h2⟩)
      · exact ⟨h1, .inl h2⟩
      · exact ⟨h1, .inr (.inl h2)⟩
      · exact ⟨h1, .inr (.inr h2)⟩

example (order order' : IterOrder) (ho : IsOrder order) (ho' : IsOrder order') :
    SameConf ((Config.new .Client).load f64Secs order [] (.text tidyText)).2 ((Config.new .Client).load f64Secs order' [] (.text saidText)).2 :=
  (C120_default ho ho' _ _ tidy_doc said_doc (n := "GENERAL") (o := "seccomp") (v := "off") (by decide) said_adds).2

/-- Both are loaded, and another value makes a difference. -/
example : ((Config.new .Client).load f64Secs id [] (.text tidyText)).1 = .ok () ∧
    ((Config.new .Client).load f64Secs id [] (.text saidText)).2.seccomp = .Off ∧
    ((Config.new .Client).load f64Secs id [] (.text "[GENERAL]\nseccomp=kill\n".toList)).2.seccomp = .Kill := by decide +kernel

/-- A server file without the table: it is accepted, and with it `letmeinfwd` cannot start. -/
example : ∃ c', (Config.new .Server).load f64Secs id [] (.text tidyText) = (.ok (), c') ∧ ∀ k nftOk, ¬ ∃ s, fwdStart c' k nftOk = some s := by
  have h : ((Config.new .Server).load f64Secs id [] (.text tidyText)).1 = .ok () := by decide +kernel
  cases e : (Config.new .Server).load f64Secs id [] (.text tidyText) with
  | mk r c' =>
    rw [e] at h
    simp only at h
    subst h
    refine ⟨c', rfl, fun k nftOk hs => ?_⟩
    obtain ⟨_, ⟨v, as, h1, _⟩, _⟩ := (C120_required id_order tidy_doc rfl e k nftOk).1 hs
    simp only [tidyDoc, List.mem_cons, Prod.mk.injEq, List.not_mem_nil, or_false] at h1
    exact absurd h1.1 (by decide)

end Letmein.Props
