import Verif.Props.ConfShow
import Verif.Props.Conf
import Verif.Model.Float

/-!
# Properties C93, C94: which configurations there are, and what in a file does not matter

C93: exactly the valid configurations can be written down. C94: comments, empty lines, line ends, blanks and the order of sections and lines do not
matter.
-/

namespace Letmein.Spec

/-- Some text on a line means this time. -/
def TimeOf (f64 : Str → Option Duration) (t : Duration) : Prop := ∃ s, '\n' ∉ s ∧ DurationText f64 s t

/-- A text that fits on a line and has no blanks around it. -/
structure PlainText (t : Str) : Prop where
  oneLine : '\n' ∉ t
  first : ∀ c, t.head? = some c → isWhitespace c = false
  last : ∀ c, t.getLast? = some c → isWhitespace c = false

/-- The configurations that make sense: a protocol for every port, no trivial key, no port under two resources; settings of the other program are
untouched. -/
structure ValidConf (f64 : Str → Option Duration) (c : Config) : Prop where
  port : c.port.tcp = true ∨ c.port.udp = true
  controlTimeout : TimeOf f64 c.controlTimeout
  keys : ∀ u k, c.key u = some k → (∃ b ∈ k.val, b ≠ 0x00) ∧ (∃ b ∈ k.val, b ≠ 0xFF)
  protocol : ∀ id r, c.resource id = some r → r.tcp = true ∨ r.udp = true
  ports : ∀ id id' r r', c.resource id = some r → c.resource id' = some r' → r.port = r'.port → id = id'
  server : c.variant = .Server → c.defaultUser = ⟨0⟩ ∧ PlainText c.nftExe ∧
    c.nftFamily ∈ ["".toList, "inet".toList, "ip".toList, "ip6".toList] ∧ PlainText c.nftTable ∧ PlainText c.nftChainInput ∧ TimeOf f64 c.nftTimeout
  client : c.variant = .Client → c.nftExe = [] ∧ c.nftFamily = [] ∧ c.nftTable = [] ∧ c.nftChainInput = [] ∧ c.nftTimeout = 600000000000

/-- The two texts are equal up to blanks around them. -/
def SameButBlanks (v v' : Str) : Prop := ∃ t, Trimmed v t ∧ Trimmed v' t

/-- Every setting of `d` is also in `d'`, up to blanks. -/
def SettingsIn (d d' : Doc) : Prop := ∀ n o v, Setting d n o v → ∃ v', Setting d' n o v' ∧ SameButBlanks v v'

/-- The same assignments in another order; every name is assigned once. -/
def Rearranged (as as' : List (Str × Str)) : Prop := as.Perm as' ∧ (as.map (·.1)).Nodup

/-- Lines that differ in layout only: empty lines and comments come and go, and blanks in front of a line. -/
inductive SameLayout : List Str → List Str → Prop
  | nil : SameLayout [] []
  | ignoredLeft {l : Str} {ls ls' : List Str} : IgnoredLine l → SameLayout ls ls' → SameLayout (l :: ls) ls'
  | ignoredRight {l : Str} {ls ls' : List Str} : IgnoredLine l → SameLayout ls ls' → SameLayout ls (l :: ls')
  | line {w w' l : Str} {ls ls' : List Str} : Blank w → Blank w' → SameLayout ls ls' → SameLayout ((w ++ l) :: ls) ((w' ++ l) :: ls')

/-- The sections of `d` are also in `d'`, with the same assignments, perhaps in another order. -/
def SectionsIn (d d' : Doc) : Prop := ∀ n as, (n, as) ∈ d → ∃ as', (n, as') ∈ d' ∧ (as = as' ∨ Rearranged as as')

end Letmein.Spec

namespace Letmein.Props

open Letmein Prog Spec

/-! ## Writing documents -/

theorem textLines_exist (ls : List Str) (h : ∀ l ∈ ls, '\n' ∉ l) : ∃ s, TextLines s ls := by
  induction ls with
  | nil => exact ⟨[], .nil⟩
  | cons l ls ih =>
    obtain ⟨s, hs⟩ := ih fun l' hl' => h l' (List.mem_cons_of_mem _ hl')
    exact ⟨_, .crlf (h l (List.mem_cons_self ..)) hs⟩

/-- A name that can be assigned to. -/
structure GoodName (n : Str) : Prop where
  oneLine : '\n' ∉ n
  noEq : '=' ∉ n
  first : ∃ c, n.head? = some c ∧ isWhitespace c = false ∧ c ≠ '#' ∧ c ≠ '['
  last : ∃ c, n.getLast? = some c ∧ isWhitespace c = false

theorem sectionLines_exist (as : List (Str × Str)) (h : ∀ a ∈ as, GoodName a.1 ∧ '\n' ∉ a.2) : ∃ ls, SectionLines ls as ∧ ∀ l ∈ ls, '\n' ∉ l := by
  induction as with
  | nil => exact ⟨[], .nil, by simp⟩
  | cons a as ih =>
    obtain ⟨ls, h1, h2⟩ := ih fun a' ha' => h a' (List.mem_cons_of_mem _ ha')
    obtain ⟨⟨g1, g2, g3, g4⟩, h4⟩ := h a (List.mem_cons_self ..)
    refine ⟨(a.1 ++ '=' :: a.2) :: ls, .assign (n := a.1) (v := a.2) ⟨[], [], by simp, by simp [Blank], by simp [Blank], g2, g3, g4⟩ h1, ?_⟩
    intro l hl
    rcases List.mem_cons.1 hl with rfl | hl
    · simp only [List.mem_append, List.mem_cons, not_or]
      exact ⟨g1, by decide, h4⟩
    · exact h2 l hl

theorem docLines_exist (d : Doc) (h : ∀ s ∈ d, s.1 ≠ [] ∧ '\n' ∉ s.1 ∧ ∀ a ∈ s.2, GoodName a.1 ∧ '\n' ∉ a.2) :
    ∃ ls, DocLines ls d ∧ ∀ l ∈ ls, '\n' ∉ l := by
  induction d with
  | nil => exact ⟨[], .nil, by simp⟩
  | cons s d ih =>
    obtain ⟨ls, h1, h2⟩ := ih fun s' hs' => h s' (List.mem_cons_of_mem _ hs')
    obtain ⟨h3, h4, h5⟩ := h s (List.mem_cons_self ..)
    obtain ⟨b, h6, h7⟩ := sectionLines_exist s.2 h5
    refine ⟨('[' :: s.1 ++ [']']) :: b ++ ls, .sect (n := s.1) (as := s.2) ⟨[], [], by simp, by simp [Blank], by simp [Blank], h3⟩ h6 h1, ?_⟩
    intro l hl
    simp only [List.cons_append, List.mem_cons, List.mem_append] at hl
    rcases hl with rfl | hl | hl
    · simp only [List.mem_cons, List.mem_append, List.not_mem_nil, or_false, not_or]
      exact ⟨by decide, h4, by decide⟩
    · exact h7 l hl
    · exact h2 l hl

theorem iniText_exists {d : Doc} (hn : (d.map (·.1)).Nodup) (h : ∀ s ∈ d, s.1 ≠ [] ∧ '\n' ∉ s.1 ∧ ∀ a ∈ s.2, GoodName a.1 ∧ '\n' ∉ a.2) :
    ∃ s, IniText s d := by
  obtain ⟨ls, h1, h2⟩ := docLines_exist d h
  obtain ⟨s, h3⟩ := textLines_exist ls h2
  exact ⟨s, ls, h3, h1, hn⟩

theorem sections_unique {d : Doc} (hn : (d.map (·.1)).Nodup) {n : Str} {as as' : List (Str × Str)} (h : (n, as) ∈ d) (h' : (n, as') ∈ d) : as = as' := by
  have e1 := assocGet_of_mem hn h
  have e2 := assocGet_of_mem hn h'
  rw [e1] at e2
  injection e2

theorem lastValue_mem {as : List (Str × Str)} {o v : Str} (h : LastValue as o v) : (o, v) ∈ as := by
  obtain ⟨a, b, rfl, _⟩ := h
  simp

theorem lastValue_nodup {as : List (Str × Str)} (hn : (as.map (·.1)).Nodup) {o v : Str} : LastValue as o v ↔ (o, v) ∈ as := by
  refine ⟨lastValue_mem, fun h => ?_⟩
  obtain ⟨v', h'⟩ := lastValue_exists h
  have e1 := assocGet_of_mem hn (lastValue_mem h')
  have e2 := assocGet_of_mem hn h
  simp only at e1
  rw [e1] at e2
  injection e2 with e2
  subst e2
  exact h'

theorem setting_iff_mem {d : Doc} (hn : (d.map (·.1)).Nodup) {n : Str} {as : List (Str × Str)} (h : (n, as) ∈ d) (ha : (as.map (·.1)).Nodup) {o v : Str} :
    Setting d n o v ↔ (o, v) ∈ as := by
  rw [← lastValue_nodup ha]
  constructor
  · rintro ⟨as', h1, h2⟩
    rw [sections_unique hn h h1]
    exact h2
  · exact fun h2 => ⟨as, h, h2⟩

/-! ## Writing values -/

theorem noNewline_hex {s : Str} (h : ∀ c ∈ s, c ∈ "0123456789ABCDEF".toList) : '\n' ∉ s := fun hm => absurd (h _ hm) (by decide)

theorem pieces_exist {c : Char} {items : List Str} (hne : items ≠ []) (h : ∀ p ∈ items, c ∉ p) :
    ∃ s, Pieces c s items ∧ ∀ x ∈ s, x = c ∨ ∃ p ∈ items, x ∈ p := by
  induction items with
  | nil => exact absurd rfl hne
  | cons p items ih =>
    have hp := h p (List.mem_cons_self ..)
    cases items with
    | nil => exact ⟨p, .last hp, fun x hx => .inr ⟨p, List.mem_cons_self .., hx⟩⟩
    | cons q items =>
      obtain ⟨s, h1, h2⟩ := ih (by simp) fun p' hp' => h p' (List.mem_cons_of_mem _ hp')
      refine ⟨p ++ c :: s, .cons hp h1, ?_⟩
      intro x hx
      rcases List.mem_append.1 hx with hx | hx
      · exact .inr ⟨p, List.mem_cons_self .., hx⟩
      · rcases List.mem_cons.1 hx with rfl | hx
        · exact .inl rfl
        · rcases h2 x hx with rfl | ⟨p', hp', hx⟩
          · exact .inl rfl
          · exact .inr ⟨p', List.mem_cons_of_mem _ hp', hx⟩

theorem numeral_exists (n : Nat) : ∃ s, Numeral 16 s n ∧ ∀ c ∈ s, c ∈ "0123456789ABCDEF".toList :=
  ⟨showHexUpper n, numeral_showHexUpper n, fun c hc => mem_padZeros (w := 0) (n := n) (by simpa [padZeros] using hc)⟩

theorem wordText_self {w : String} (hw : ∀ c ∈ w.toList, isWhitespace c = false) : WordText w.toList w :=
  ⟨_, trimmed_self hw, by
    generalize w.toList = s
    induction s with
    | nil => exact .nil
    | cons c s ih => exact .cons (.inl rfl) ih⟩

theorem pieces_single {c : Char} {p : Str} (h : c ∉ p) : Pieces c p [p] := .last h

theorem hasWord_self {items : List Str} {w : String} (h : w.toList ∈ items) (hc : ':' ∉ w.toList) (hm : ',' ∉ w.toList)
    (hw : ∀ c ∈ w.toList, isWhitespace c = false) : HasWord items w :=
  ⟨_, h, hc, _, pieces_single hm, _, List.mem_cons_self .., wordText_self hw⟩

theorem protoItem_tcp : ProtoItem "tcp".toList := by
  refine ⟨by decide, _, pieces_single (by decide), ?_⟩
  intro p hp
  rw [List.mem_singleton.1 hp]
  exact .inl (wordText_self (by decide))

theorem protoItem_udp : ProtoItem "udp".toList := by
  refine ⟨by decide, _, pieces_single (by decide), ?_⟩
  intro p hp
  rw [List.mem_singleton.1 hp]
  exact .inr (wordText_self (by decide))

/-- The items for the protocols. -/
def protoItems (tcp udp : Bool) : List Str := (if tcp then ["tcp".toList] else []) ++ (if udp then ["udp".toList] else [])

theorem mem_protoItems {tcp udp : Bool} {i : Str} (h : i ∈ protoItems tcp udp) : (i = "tcp".toList ∧ tcp = true) ∨ (i = "udp".toList ∧ udp = true) := by
  unfold protoItems at h
  cases tcp <;> cases udp <;> simp at h ⊢ <;> exact h

theorem protocols_of {items : List Str} {tcp udp : Bool} (hp : tcp = true ∨ udp = true)
    (h1 : ∀ i ∈ items, ':' ∉ i → i ∈ protoItems tcp udp ∨ ¬ HasWord [i] "tcp" ∧ ¬ HasWord [i] "udp") (h2 : ∀ i ∈ protoItems tcp udp, i ∈ items) :
    Protocols items tcp udp := by
  have hin : ∀ w, HasWord items w → ∃ i ∈ items, ':' ∉ i ∧ HasWord [i] w := by
    rintro w ⟨i, hi, hc, x⟩
    exact ⟨i, hi, hc, i, List.mem_cons_self .., hc, x⟩
  have hsub : ∀ w i, HasWord [i] w → WordText i w ∨ ',' ∈ i := by
    rintro w i ⟨j, hj, _, ps, h3, p, h4, h5⟩
    rw [List.mem_singleton.1 hj] at h3
    by_cases hm : ',' ∈ i
    · exact .inr hm
    · have := pieces_iff.1 (pieces_single hm)
      rw [pieces_iff.1 h3] at this
      rw [this] at h4
      rw [List.mem_singleton.1 h4] at h5
      exact .inl h5
  have ht : HasWord items "tcp" → tcp = true := by
    intro h
    obtain ⟨i, hi, hc, hw⟩ := hin _ h
    rcases h1 i hi hc with h | h
    · rcases mem_protoItems h with ⟨_, h⟩ | ⟨rfl, _⟩
      · exact h
      · rcases hsub _ _ hw with h | h
        · exact absurd (wordText_self (w := "udp") (by decide)) (tcp_not_udp h)
        · exact absurd h (by decide)
    · exact absurd hw h.1
  have hu : HasWord items "udp" → udp = true := by
    intro h
    obtain ⟨i, hi, hc, hw⟩ := hin _ h
    rcases h1 i hi hc with h | h
    · rcases mem_protoItems h with ⟨rfl, _⟩ | ⟨_, h⟩
      · rcases hsub _ _ hw with h | h
        · exact absurd h (tcp_not_udp (wordText_self (w := "tcp") (by decide)))
        · exact absurd h (by decide)
      · exact h
    · exact absurd hw h.2
  have ht' : tcp = true → HasWord items "tcp" := fun h =>
    hasWord_self (h2 _ (by simp [protoItems, h])) (by decide) (by decide) (by decide)
  have hu' : udp = true → HasWord items "udp" := fun h =>
    hasWord_self (h2 _ (by simp [protoItems, h])) (by decide) (by decide) (by decide)
  refine ⟨⟨fun h => .inl (ht' h), ?_⟩, hu', hu⟩
  rintro (h | h)
  · exact ht h
  · rcases hp with h' | h'
    · exact h'
    · exact absurd (hu' h') h

theorem protoItems_clean {tcp udp : Bool} {i : Str} (h : i ∈ protoItems tcp udp) {c : Char} (hc : c ∈ i) : c ∈ "tcpud".toList := by
  rcases mem_protoItems h with ⟨rfl, _⟩ | ⟨rfl, _⟩
  · exact (by decide : ∀ c ∈ "tcp".toList, c ∈ "tcpud".toList) c hc
  · exact (by decide : ∀ c ∈ "udp".toList, c ∈ "tcpud".toList) c hc

/-- Hexadecimal numbers with prefix. -/
def hexItem (s : Str) : Str := '0' :: 'x' :: s

theorem hexItem_chars {s : Str} (h : ∀ c ∈ s, c ∈ "0123456789ABCDEF".toList) : ∀ c ∈ hexItem s, c ∈ "0123456789ABCDEFx".toList := by
  intro c hc
  rcases List.mem_cons.1 hc with rfl | hc
  · decide
  · rcases List.mem_cons.1 hc with rfl | hc
    · decide
    · exact (by decide : ∀ c ∈ "0123456789ABCDEF".toList, c ∈ "0123456789ABCDEFx".toList) c (h c hc)

theorem plain_hexItem {s : Str} {n : Nat} (h : ∀ c ∈ s, c ∈ "0123456789ABCDEF".toList) (hn : Numeral 16 s n) : PlainNatText (hexItem s) n :=
  ⟨hexItem s, trimmed_self fun c hc => (by decide : ∀ c ∈ "0123456789ABCDEFx".toList, isWhitespace c = false) c (hexItem_chars h c hc), .inr ⟨s, rfl, hn⟩⟩

theorem portText_exists {cp : ControlPort} (hp : cp.tcp = true ∨ cp.udp = true) : ∃ s, PortText s cp ∧ '\n' ∉ s := by
  obtain ⟨t, ht, hc⟩ := numeral_exists cp.port.toNat
  have hx := hexItem_chars hc
  have hnum : NumberItem (hexItem t) cp.port :=
    ⟨fun h => absurd (hx _ h) (by decide), fun h => absurd (hx _ h) (by decide), plain_hexItem hc ht⟩
  have hnot : ∀ i ∈ protoItems cp.tcp cp.udp, ¬ ∃ p, NumberItem i p := by
    rintro i hi ⟨p, hcol, _, hnat⟩
    have h2 := plainNatText_natText hnat
    rcases mem_protoItems hi with ⟨rfl, _⟩ | ⟨rfl, _⟩
    · exact number_not_tcp ((plainNatText_iff (max := 65535) (n := p.toNat)).2 ⟨hnat, by have := p.toNat_lt; omega⟩).1 (wordText_self (by decide))
    · exact number_not_udp ((plainNatText_iff (max := 65535) (n := p.toNat)).2 ⟨hnat, by have := p.toNat_lt; omega⟩).1 (wordText_self (by decide))
  obtain ⟨s, h1, h2⟩ := pieces_exist (c := '/') (items := hexItem t :: protoItems cp.tcp cp.udp) (by simp) (by
    intro p hp hm
    rcases List.mem_cons.1 hp with rfl | hp
    · exact absurd (hx _ hm) (by decide)
    · exact absurd (protoItems_clean hp hm) (by decide))
  refine ⟨s, ⟨_, h1, ?_, .inl ⟨[], hexItem t, _, rfl, hnum, hnot⟩, protocols_of hp ?_ fun i hi => List.mem_cons_of_mem _ hi⟩, ?_⟩
  · intro i hi
    rcases List.mem_cons.1 hi with rfl | hi
    · exact .inl ⟨_, hnum⟩
    · refine .inr ?_
      rcases mem_protoItems hi with ⟨rfl, _⟩ | ⟨rfl, _⟩
      · exact protoItem_tcp
      · exact protoItem_udp
  · intro i hi _
    rcases List.mem_cons.1 hi with rfl | hi
    · refine .inr ⟨?_, ?_⟩
      all_goals
        rintro ⟨j, hj, _, ps, h3, p, h4, h5⟩
        rw [List.mem_singleton.1 hj] at h3
        have := pieces_iff.1 (pieces_single (c := ',') (p := hexItem t) fun h => absurd (hx _ h) (by decide))
        rw [pieces_iff.1 h3] at this
        rw [this] at h4
        rw [List.mem_singleton.1 h4] at h5
        have hisn := ((plainNatText_iff (max := 65535) (n := cp.port.toNat)).2 ⟨hnum.2.2, by have := cp.port.toNat_lt; omega⟩).1
        first | exact number_not_tcp hisn h5 | exact number_not_udp hisn h5
    · exact .inl hi
  · intro hm
    rcases h2 _ hm with h | ⟨p, hp, hm⟩
    · exact absurd h (by decide)
    · rcases List.mem_cons.1 hp with rfl | hp
      · exact absurd (hx _ hm) (by decide)
      · exact absurd (protoItems_clean hp hm) (by decide)

theorem idTexts_exist (us : List UserId) : ∃ ps, IdTexts ps us ∧ ps.length = us.length ∧ ∀ p ∈ ps, ∀ c ∈ p, c ∈ "0123456789ABCDEF".toList := by
  induction us with
  | nil => exact ⟨[], .nil, rfl, by simp⟩
  | cons u us ih =>
    obtain ⟨ps, h1, h2, h3⟩ := ih
    refine ⟨showId u.raw :: ps, .cons (showId_text u.raw) h1, by simp [h2], ?_⟩
    intro p hp
    rcases List.mem_cons.1 hp with rfl | hp
    · exact fun c hc => mem_showId hc
    · exact h3 p hp

theorem resourceText_exists {r : Resource} (hp : r.tcp = true ∨ r.udp = true) : ∃ s, ResourceText s r ∧ '\n' ∉ s := by
  obtain ⟨t, ht, hc⟩ := numeral_exists r.port.toNat
  have hx := hexItem_chars hc
  have hport : PortItem ("port".toList ++ ':' :: hexItem t) r.port :=
    ⟨hexItem t, ⟨_, rfl, by decide, trimmed_self (by decide)⟩, plainNatText_natText (plain_hexItem hc ht)⟩
  -- the list of users
  have husers : ∃ ui : List Str, (∀ i ∈ ui, (∃ v, i = "users".toList ++ ':' :: v) ∧ ∀ c ∈ i, c ∈ "users:,0123456789ABCDEF".toList) ∧
      ((∃ i, ui = [i] ∧ UsersItem i r.users) ∨ (ui = [] ∧ r.users = [])) := by
    cases hus : r.users with
    | nil => exact ⟨[], by simp, .inr ⟨rfl, rfl⟩⟩
    | cons u us =>
      obtain ⟨ps, h1, h2, h3⟩ := idTexts_exist (u :: us)
      have hne : ps ≠ [] := by intro h; rw [h] at h2; cases h2
      obtain ⟨v, h4, h5⟩ := pieces_exist (c := ',') hne fun p hp hm => absurd (h3 p hp _ hm) (by decide)
      refine ⟨["users".toList ++ ':' :: v], ?_, .inl ⟨_, rfl, v, ps, ⟨_, rfl, by decide, trimmed_self (by decide)⟩, h4, h1⟩⟩
      intro i hi
      rw [List.mem_singleton.1 hi]
      refine ⟨⟨v, rfl⟩, ?_⟩
      intro c hc
      rcases List.mem_append.1 hc with hc | hc
      · exact (by decide : ∀ c ∈ "users".toList, c ∈ "users:,0123456789ABCDEF".toList) c hc
      · rcases List.mem_cons.1 hc with rfl | hc
        · decide
        · rcases h5 c hc with rfl | ⟨p, hp, hc⟩
          · decide
          · exact (by decide : ∀ c ∈ "0123456789ABCDEF".toList, c ∈ "users:,0123456789ABCDEF".toList) c (h3 p hp c hc)
  obtain ⟨ui, hui, hus⟩ := husers
  have hpc : ∀ c ∈ "port".toList ++ ':' :: hexItem t, c ∈ "port:0123456789ABCDEFx".toList := by
    intro c hc
    rcases List.mem_append.1 hc with hc | hc
    · exact (by decide : ∀ c ∈ "port".toList, c ∈ "port:0123456789ABCDEFx".toList) c hc
    · rcases List.mem_cons.1 hc with rfl | hc
      · decide
      · exact (by decide : ∀ c ∈ "0123456789ABCDEFx".toList, c ∈ "port:0123456789ABCDEFx".toList) c (hx c hc)
  have hclean : ∀ i ∈ ("port".toList ++ ':' :: hexItem t) :: (ui ++ protoItems r.tcp r.udp), ∀ c ∈ i, c ≠ '/' ∧ c ≠ '\n' := by
    intro i hi c hc
    rcases List.mem_cons.1 hi with rfl | hi
    · exact (by decide : ∀ c ∈ "port:0123456789ABCDEFx".toList, c ≠ '/' ∧ c ≠ '\n') c (hpc c hc)
    · rcases List.mem_append.1 hi with hi | hi
      · exact (by decide : ∀ c ∈ "users:,0123456789ABCDEF".toList, c ≠ '/' ∧ c ≠ '\n') c ((hui i hi).2 c hc)
      · exact (by decide : ∀ c ∈ "tcpud".toList, c ≠ '/' ∧ c ≠ '\n') c (protoItems_clean hi hc)
  obtain ⟨s, h1, h2⟩ := pieces_exist (c := '/') (items := ("port".toList ++ ':' :: hexItem t) :: (ui ++ protoItems r.tcp r.udp)) (by simp)
    fun p hp hm => (hclean p hp _ hm).1 rfl
  have hnocol : ∀ i ∈ protoItems r.tcp r.udp, ':' ∉ i := fun i hi hm => absurd (protoItems_clean hi hm) (by decide)
  refine ⟨s, ⟨_, h1, ?_, ⟨[], _, _, rfl, hport, ?_⟩, ?_, protocols_of hp ?_ fun i hi => List.mem_cons_of_mem _ (List.mem_append_right _ hi)⟩, ?_⟩
  · intro i hi
    rcases List.mem_cons.1 hi with rfl | hi
    · exact .inl ⟨_, hport⟩
    · rcases List.mem_append.1 hi with hi | hi
      · rcases hus with ⟨j, rfl, hj⟩ | ⟨rfl, _⟩
        · rw [List.mem_singleton.1 hi]; exact .inr (.inl ⟨_, hj⟩)
        · cases hi
      · refine .inr (.inr ?_)
        rcases mem_protoItems hi with ⟨rfl, _⟩ | ⟨rfl, _⟩
        · exact protoItem_tcp
        · exact protoItem_udp
  · rintro j hj ⟨v, hk⟩
    rw [List.nil_append] at hj
    rcases List.mem_append.1 hj with hj | hj
    · obtain ⟨⟨v', rfl⟩, _⟩ := hui j hj
      exact absurd ((keyItem_kv (by decide)).1 hk).2 (by decide)
    · exact keyItem_not (hnocol j hj) hk
  · rcases hus with ⟨j, rfl, hj⟩ | ⟨rfl, hj⟩
    · refine .inl ⟨["port".toList ++ ':' :: hexItem t], j, protoItems r.tcp r.udp, rfl, hj, ?_⟩
      rintro i hi ⟨v, hk⟩
      rcases List.mem_append.1 hi with hi | hi
      · rw [List.mem_singleton.1 hi] at hk
        exact absurd ((keyItem_kv (by decide)).1 hk).2 (by decide)
      · exact keyItem_not (hnocol i hi) hk
    · refine .inr ⟨hj, ?_⟩
      rintro i hi ⟨v, hk⟩
      rcases List.mem_cons.1 hi with rfl | hi
      · exact absurd ((keyItem_kv (by decide)).1 hk).2 (by decide)
      · exact keyItem_not (hnocol i hi) hk
  · intro i hi hcol
    rcases List.mem_cons.1 hi with rfl | hi
    · simp at hcol
    · rcases List.mem_append.1 hi with hi | hi
      · obtain ⟨⟨v', rfl⟩, _⟩ := hui i hi
        simp at hcol
      · exact .inl hi
  · intro hm
    rcases h2 _ hm with h | ⟨p, hp, hm⟩
    · exact absurd h (by decide)
    · exact (hclean p hp _ hm).2 rfl

/-! ## C93: exactly the valid configurations can be written down -/

/-- A document for a configuration, given the texts for what is not plain. -/
def confDoc (c : Config) (port control timeout : Str) (res : Resource → Str) : Doc :=
  [("GENERAL".toList, [("debug".toList, if c.debug then "true".toList else "false".toList), ("port".toList, port), ("control-timeout".toList, control),
      ("control-error-policy".toList, match c.controlErrorPolicy with
        | .Always => "always".toList | .BasicAuth => "basic-auth".toList | .FullAuth => "full-auth".toList),
      ("seccomp".toList, match c.seccomp with | .Off => "off".toList | .Log => "log".toList | .Kill => "kill".toList)]),
   ("KEYS".toList, c.keys.map fun e => (showId e.1.raw, (e.2.val.map showHexByte).flatten)),
   ("RESOURCES".toList, c.resources.map fun e => (showId e.1.raw, res e.2)),
   ("CLIENT".toList, [("default-user".toList, showId c.defaultUser.raw)]),
   ("NFTABLES".toList, [("exe".toList, c.nftExe), ("table".toList, c.nftTable), ("chain-input".toList, c.nftChainInput), ("timeout".toList, timeout)] ++
      if c.nftFamily = [] then [] else [("family".toList, c.nftFamily)])]

theorem showId_inj {x y : UInt32} (h : showId x = showId y) : x = y := by
  have h1 := showId_text x
  rw [h] at h1
  exact idText_unique h1 (showId_text y)

theorem goodName_id (x : UInt32) : GoodName (showId x) := by
  have hlen := showId_length x
  have hne : showId x ≠ [] := by intro h; rw [h] at hlen; cases hlen
  refine ⟨noNewline_hex fun c hc => mem_showId hc, fun h => (hex_char (mem_showId h)).2.2.2.1 rfl, ?_, ?_⟩
  · cases h : (showId x).head? with
    | none => simp at h; exact absurd h hne
    | some c =>
      have := hex_char (mem_showId (List.mem_of_mem_head? h))
      exact ⟨c, rfl, this.1, this.2.1, this.2.2.1⟩
  · cases h : (showId x).getLast? with
    | none => simp at h; exact absurd h hne
    | some c => exact ⟨c, rfl, (hex_char (mem_showId (List.mem_of_mem_getLast? h))).1⟩

theorem goodName_lit {n : Str} (h : ∀ c ∈ n, c ∈ "abcdefghijklmnopqrstuvwxyz-".toList) (hne : n ≠ []) : GoodName n := by
  have hc : ∀ c ∈ "abcdefghijklmnopqrstuvwxyz-".toList, isWhitespace c = false ∧ c ≠ '#' ∧ c ≠ '[' ∧ c ≠ '=' ∧ c ≠ '\n' := by decide
  refine ⟨fun hm => (hc _ (h _ hm)).2.2.2.2 rfl, fun hm => (hc _ (h _ hm)).2.2.2.1 rfl, ?_, ?_⟩
  · cases e : n.head? with
    | none => simp at e; exact absurd e hne
    | some c =>
      have := hc c (h c (List.mem_of_mem_head? e))
      exact ⟨c, rfl, this.1, this.2.1, this.2.2.1⟩
  · cases e : n.getLast? with
    | none => simp at e; exact absurd e hne
    | some c => exact ⟨c, rfl, (hc c (h c (List.mem_of_mem_getLast? e))).1⟩

theorem confDoc_nodup (c : Config) (port control timeout : Str) (res : Resource → Str) : ((confDoc c port control timeout res).map (·.1)).Nodup := by
  simp only [confDoc, List.map_cons, List.map_nil]
  decide

theorem nodup_ids {α β : Type} {l : List (α × β)} {raw : α → UInt32} (hraw : ∀ a b, raw a = raw b → a = b) (f : β → Str) (h : (l.map (·.1)).Nodup) :
    ((l.map fun e => (showId (raw e.1), f e.2)).map (·.1)).Nodup := by
  induction l with
  | nil => simp
  | cons e l ih =>
    simp only [List.map_cons, List.nodup_cons, List.mem_map, not_exists, not_and] at h ⊢
    refine ⟨?_, by simpa using ih h.2⟩
    rintro x ⟨y, hy, rfl⟩ hxy
    exact h.1 _ hy (hraw _ _ (showId_inj hxy))

theorem mem_ids {α β : Type} {l : List (α × β)} {raw : α → UInt32} (hraw : ∀ a b, raw a = raw b → a = b) (f : β → Str) {n v : Str} :
    (n, v) ∈ (l.map fun e => (showId (raw e.1), f e.2)) ↔ ∃ a b, (a, b) ∈ l ∧ n = showId (raw a) ∧ v = f b := by
  simp only [List.mem_map, Prod.mk.injEq]
  constructor
  · rintro ⟨⟨a, b⟩, h, rfl, rfl⟩; exact ⟨a, b, h, rfl, rfl⟩
  · rintro ⟨a, b, h, rfl, rfl⟩; exact ⟨(a, b), h, rfl, rfl⟩

theorem userId_raw_inj (a b : UserId) (h : a.raw = b.raw) : a = b := by cases a; cases b; simp at h; rw [h]
theorem resourceId_raw_inj (a b : ResourceId) (h : a.raw = b.raw) : a = b := by cases a; cases b; simp at h; rw [h]

theorem seconds_timeOf (f64 : F64Secs) {n : Nat} (h : n < 2 ^ 32) : TimeOf f64 (n * 1000000000) := by
  obtain ⟨t, ht, hc⟩ := numeral_exists n
  exact ⟨hexItem t, fun hm => absurd (hexItem_chars hc _ hm) (by decide), .inl ⟨n, plainNatText_natText (plain_hexItem hc ht), h, rfl⟩⟩

/-- A valid configuration is described by a document that can be written. -/
theorem confDoc_describes {f64 : F64Secs} {c : Config} (hk : (c.keys.map (·.1)).Nodup) (hr : (c.resources.map (·.1)).Nodup) (h : ValidConf f64 c) :
    ∃ s d, IniText s d ∧ ConfOf f64 d c := by
  obtain ⟨port, hp1, hp2⟩ := portText_exists h.port
  obtain ⟨control, hc2, hc1⟩ := h.controlTimeout
  have htime : TimeOf f64 c.nftTimeout := by
    cases hv : c.variant with
    | Server => exact (h.server hv).2.2.2.2.2
    | Client => rw [(h.client hv).2.2.2.2]; exact seconds_timeOf f64 (n := 600) (by decide)
  obtain ⟨timeout, ht2, ht1⟩ := htime
  obtain ⟨res, hres⟩ := Classical.skolem.1 (fun r : Resource => (Classical.em (r.tcp = true ∨ r.udp = true)).elim
    (fun hp => (resourceText_exists hp).imp fun s hs (_ : r.tcp = true ∨ r.udp = true) => hs) (fun hp => ⟨[], fun hp' => absurd hp' hp⟩))
  have hrm : ∀ e ∈ c.resources, ResourceText (res e.2) e.2 ∧ '\n' ∉ res e.2 := by
    intro e he
    exact hres _ (h.protocol e.1 e.2 (assocGet_of_mem hr he))
  have hkm : ∀ e ∈ c.keys, KeyText (e.2.val.map showHexByte).flatten e.2 := by
    intro e he
    have := h.keys e.1 e.2 (assocGet_of_mem hk he)
    exact ⟨⟨_, trimmed_self fun c hc => (hex_char (mem_showKey hc)).1, hexPairs_show _⟩, this⟩
  have hplain : PlainText c.nftExe ∧ PlainText c.nftTable ∧ PlainText c.nftChainInput ∧ '\n' ∉ c.nftFamily := by
    have hnil : PlainText [] := ⟨by simp, by simp, by simp⟩
    cases hv : c.variant with
    | Server =>
      obtain ⟨_, a1, a2, a3, a4, _⟩ := h.server hv
      exact ⟨a1, a3, a4, (by decide : ∀ f ∈ ["".toList, "inet".toList, "ip".toList, "ip6".toList], '\n' ∉ f) _ a2⟩
    | Client =>
      obtain ⟨a1, a2, a3, a4, _⟩ := h.client hv
      rw [a1, a2, a3, a4]
      exact ⟨hnil, hnil, hnil, by simp⟩
  obtain ⟨hexe, htable, hchain, hfamily⟩ := hplain
  have htr : ∀ {t : Str}, PlainText t → Trimmed t t := fun h => ⟨⟨[], [], by simp, by simp, by simp⟩, h.first, h.last⟩
  have hn := confDoc_nodup c port control timeout res
  obtain ⟨s, hs⟩ := iniText_exists hn (by
    intro sect hsect
    simp only [confDoc, List.mem_cons, List.not_mem_nil, or_false] at hsect
    rcases hsect with rfl | rfl | rfl | rfl | rfl
    · refine ⟨by simp, (by decide : '\n' ∉ "GENERAL".toList), ?_⟩
      intro a ha
      simp only [List.mem_cons, List.not_mem_nil, or_false] at ha
      rcases ha with rfl | rfl | rfl | rfl | rfl
      · exact ⟨goodName_lit (n := "debug".toList) (by decide) (by decide), by dsimp only; cases c.debug <;> decide⟩
      · exact ⟨goodName_lit (n := "port".toList) (by decide) (by decide), hp2⟩
      · exact ⟨goodName_lit (n := "control-timeout".toList) (by decide) (by decide), hc2⟩
      · exact ⟨goodName_lit (n := "control-error-policy".toList) (by decide) (by decide), by dsimp only; cases c.controlErrorPolicy <;> decide⟩
      · exact ⟨goodName_lit (n := "seccomp".toList) (by decide) (by decide), by dsimp only; cases c.seccomp <;> decide⟩
    · refine ⟨by simp, (by decide : '\n' ∉ "KEYS".toList), ?_⟩
      intro a ha
      obtain ⟨e, he, rfl⟩ := List.mem_map.1 ha
      exact ⟨goodName_id _, noNewline_hex fun c hc => mem_showKey hc⟩
    · refine ⟨by simp, (by decide : '\n' ∉ "RESOURCES".toList), ?_⟩
      intro a ha
      obtain ⟨e, he, rfl⟩ := List.mem_map.1 ha
      exact ⟨goodName_id _, (hrm e he).2⟩
    · refine ⟨by simp, (by decide : '\n' ∉ "CLIENT".toList), ?_⟩
      intro a ha
      rw [List.mem_singleton.1 ha]
      exact ⟨goodName_lit (n := "default-user".toList) (by decide) (by decide), noNewline_hex fun c hc => mem_showId hc⟩
    · refine ⟨by simp, (by decide : '\n' ∉ "NFTABLES".toList), ?_⟩
      intro a ha
      simp only [List.mem_append, List.mem_cons, List.not_mem_nil, or_false] at ha
      rcases ha with (rfl | rfl | rfl | rfl) | ha
      · exact ⟨goodName_lit (n := "exe".toList) (by decide) (by decide), hexe.oneLine⟩
      · exact ⟨goodName_lit (n := "table".toList) (by decide) (by decide), htable.oneLine⟩
      · exact ⟨goodName_lit (n := "chain-input".toList) (by decide) (by decide), hchain.oneLine⟩
      · exact ⟨goodName_lit (n := "timeout".toList) (by decide) (by decide), ht2⟩
      · split at ha
        · cases ha
        · rw [List.mem_singleton.1 ha]
          exact ⟨goodName_lit (n := "family".toList) (by decide) (by decide), hfamily⟩)
  refine ⟨s, _, hs, ?_⟩
  -- the settings
  have hG : ∀ {o v : Str}, Setting (confDoc c port control timeout res) "GENERAL".toList o v ↔ _ := fun {o v} =>
    setting_iff_mem hn (List.mem_cons_self ..) (by simp only [List.map_cons, List.map_nil]; decide)
  have hK : ∀ {o v : Str}, Setting (confDoc c port control timeout res) "KEYS".toList o v ↔ _ := fun {o v} =>
    (setting_iff_mem hn (List.mem_cons_of_mem _ (List.mem_cons_self ..)) (nodup_ids userId_raw_inj (fun k : Key => (k.val.map showHexByte).flatten) hk)).trans
      (mem_ids userId_raw_inj (fun k : Key => (k.val.map showHexByte).flatten))
  have hR : ∀ {o v : Str}, Setting (confDoc c port control timeout res) "RESOURCES".toList o v ↔ _ := fun {o v} =>
    (setting_iff_mem hn (List.mem_cons_of_mem _ (List.mem_cons_of_mem _ (List.mem_cons_self ..))) (nodup_ids resourceId_raw_inj res hr)).trans
      (mem_ids resourceId_raw_inj res)
  have hC : ∀ {o v : Str}, Setting (confDoc c port control timeout res) "CLIENT".toList o v ↔ _ := fun {o v} =>
    setting_iff_mem hn (List.mem_cons_of_mem _ (List.mem_cons_of_mem _ (List.mem_cons_of_mem _ (List.mem_cons_self ..)))) (by simp)
  have hN : ∀ {o v : Str}, Setting (confDoc c port control timeout res) "NFTABLES".toList o v ↔ _ := fun {o v} =>
    setting_iff_mem hn (List.mem_cons_of_mem _ (List.mem_cons_of_mem _ (List.mem_cons_of_mem _ (List.mem_cons_of_mem _ (List.mem_cons_self ..))))) (by
      split
      · simp only [List.append_nil, List.map_cons, List.map_nil]; decide
      · simp only [List.map_append, List.map_cons, List.map_nil]; decide)
  have word : ∀ (w : String), (∀ c ∈ w.toList, isWhitespace c = false) → WordText w.toList w := fun w hw => wordText_self hw
  refine ⟨.inl ⟨_, hG.2 (List.mem_cons_self ..), ?_⟩, .inl ⟨port, hG.2 (by simp), hp1⟩, .inl ⟨control, hG.2 (by simp), hc1⟩,
    .inl ⟨_, hG.2 (.tail _ (.tail _ (.tail _ (.head _)))), ?_⟩, .inl ⟨_, hG.2 (.tail _ (.tail _ (.tail _ (.tail _ (.head _))))), ?_⟩, ⟨?_, ?_, ?_⟩, hk, ⟨?_, ?_, ?_, ?_⟩, hr, ?_, ?_, ?_, ?_, ?_, ?_⟩
  · cases c.debug
    · exact .inl (word "false" (by decide))
    · exact .inl (word "true" (by decide))
  · cases c.controlErrorPolicy
    · exact word "always" (by decide)
    · exact word "basic-auth" (by decide)
    · exact word "full-auth" (by decide)
  · cases c.seccomp
    · exact word "off" (by decide)
    · exact word "log" (by decide)
    · exact word "kill" (by decide)
  · intro n v hset
    obtain ⟨u, k, hm, rfl, rfl⟩ := hK.1 hset
    exact ⟨_, k, showId_text _, hkm _ hm⟩
  · intro n v n' v' x h1 h2 h3 h4
    obtain ⟨u, k, _, rfl, rfl⟩ := hK.1 h1
    obtain ⟨u', k', _, rfl, rfl⟩ := hK.1 h2
    rw [idText_unique (showId_text _) h3, idText_unique (showId_text _) h4]
  · intro u k
    constructor
    · intro hu
      have hm := assocGet_mem hu
      exact ⟨_, _, hK.2 ⟨u, k, hm, rfl, rfl⟩, showId_text _, hkm _ hm⟩
    · rintro ⟨n, v, h1, h2, h3⟩
      obtain ⟨u', k', hm, rfl, rfl⟩ := hK.1 h1
      have e := userId_raw_inj _ _ (idText_unique (showId_text _) h2)
      subst e
      rw [keyText_unique h3 (hkm _ hm)]
      exact assocGet_of_mem hk hm
  · intro n v hset
    obtain ⟨u, r, hm, rfl, rfl⟩ := hR.1 hset
    exact ⟨_, r, showId_text _, (hrm _ hm).1⟩
  · intro n v n' v' x h1 h2 h3 h4
    obtain ⟨u, k, _, rfl, rfl⟩ := hR.1 h1
    obtain ⟨u', k', _, rfl, rfl⟩ := hR.1 h2
    rw [idText_unique (showId_text _) h3, idText_unique (showId_text _) h4]
  · intro n v n' v' r r' h1 h2 h3 h4 h5
    obtain ⟨u, k, hm, rfl, rfl⟩ := hR.1 h1
    obtain ⟨u', k', hm', rfl, rfl⟩ := hR.1 h2
    have e1 := resourceText_unique h3 (hrm _ hm).1
    have e2 := resourceText_unique h4 (hrm _ hm').1
    simp only at e1 e2
    subst e1
    subst e2
    rw [h.ports u u' r r' (assocGet_of_mem hr hm) (assocGet_of_mem hr hm') h5]
  · intro id r
    constructor
    · intro hu
      have hm := assocGet_mem hu
      exact ⟨_, _, hR.2 ⟨id, r, hm, rfl, rfl⟩, showId_text _, (hrm _ hm).1⟩
    · rintro ⟨n, v, h1, h2, h3⟩
      obtain ⟨u', k', hm, rfl, rfl⟩ := hR.1 h1
      have e := resourceId_raw_inj _ _ (idText_unique (showId_text _) h2)
      subst e
      rw [resourceText_unique h3 (hrm _ hm).1]
      exact assocGet_of_mem hr hm
  · split
    · exact .inl ⟨_, hC.2 (by simp), showId_text _⟩
    · rename_i hv
      refine (h.server ?_).1
      cases e : c.variant
      · rfl
      · exact absurd e hv
  all_goals
    split
    rename_i hv
    rotate_left
    · rename_i hv
      have hv' : c.variant = .Client := by
        cases e : c.variant
        · exact absurd e hv
        · rfl
      obtain ⟨a1, a2, a3, a4, a5⟩ := h.client hv'
      first | exact a1 | exact a2 | exact a3 | exact a4 | exact a5
  · exact .inl ⟨_, hN.2 (by simp), htr hexe⟩
  · obtain ⟨_, _, hf, _⟩ := h.server hv
    by_cases he : c.nftFamily = []
    · refine .inr ⟨?_, he⟩
      rintro ⟨v, hset⟩
      have := hN.1 hset
      simp [he] at this
    · refine .inl ⟨c.nftFamily, hN.2 (by simp [he]), ?_⟩
      simp only [List.mem_cons, List.not_mem_nil, or_false] at hf
      rcases hf with hf | hf | hf | hf
      · exact absurd hf he
      · rw [hf]; exact ⟨trimmed_self (by decide), .inl rfl⟩
      · rw [hf]; exact ⟨trimmed_self (by decide), .inr (.inl rfl)⟩
      · rw [hf]; exact ⟨trimmed_self (by decide), .inr (.inr rfl)⟩
  · exact .inl ⟨_, hN.2 (by simp), htr htable⟩
  · exact .inl ⟨_, hN.2 (by simp), htr hchain⟩
  · exact .inl ⟨_, hN.2 (by simp), ht1⟩

theorem textLines_oneLine {s : Str} {ls : List Str} (h : TextLines s ls) : ∀ l ∈ ls, '\n' ∉ l := by
  induction h with
  | nil => simp
  | last _ h => intro l hl; rw [List.mem_singleton.1 hl]; exact h
  | lf h _ _ ih =>
    intro l hl
    rcases List.mem_cons.1 hl with rfl | hl
    · exact h
    · exact ih l hl
  | crlf h _ ih =>
    intro l hl
    rcases List.mem_cons.1 hl with rfl | hl
    · exact h
    · exact ih l hl

theorem sectionLines_oneLine {ls : List Str} {as : List (Str × Str)} (h : SectionLines ls as) (hl : ∀ l ∈ ls, '\n' ∉ l) : ∀ a ∈ as, '\n' ∉ a.2 := by
  induction h with
  | nil => simp
  | ignored _ _ ih => exact ih fun l h => hl l (List.mem_cons_of_mem _ h)
  | assign h1 _ ih =>
    intro a ha
    rcases List.mem_cons.1 ha with rfl | ha
    · obtain ⟨w, w', rfl, _⟩ := h1
      exact fun hm => hl _ (List.mem_cons_self ..) (by simp [hm])
    · exact ih (fun l h => hl l (List.mem_cons_of_mem _ h)) a ha

theorem docLines_oneLine {ls : List Str} {d : Doc} (h : DocLines ls d) (hl : ∀ l ∈ ls, '\n' ∉ l) : ∀ s ∈ d, ∀ a ∈ s.2, '\n' ∉ a.2 := by
  induction h with
  | nil => simp
  | ignored _ _ ih => exact ih fun l h => hl l (List.mem_cons_of_mem _ h)
  | sect _ h2 _ ih =>
    intro s hs
    rcases List.mem_cons.1 hs with rfl | hs
    · exact sectionLines_oneLine h2 fun l h => hl l (by simp [h])
    · exact ih (fun l h => hl l (by simp [h])) s hs

theorem setting_oneLine {s : Str} {d : Doc} (h : IniText s d) {n o v : Str} (hs : Setting d n o v) : '\n' ∉ v := by
  obtain ⟨ls, h1, h2, _⟩ := h
  obtain ⟨as, h3, h4⟩ := hs
  exact docLines_oneLine h2 (textLines_oneLine h1) _ h3 _ (lastValue_mem h4)

theorem protocols_some {items : List Str} {tcp udp : Bool} (h : Protocols items tcp udp) : tcp = true ∨ udp = true := by
  by_cases hu : HasWord items "udp"
  · exact .inr (h.2.2 hu)
  · exact .inl (h.1.2 (.inr hu))

theorem plainText_trimmed {s t : Str} (hs : '\n' ∉ s) (h : Trimmed s t) : PlainText t := by
  refine ⟨fun hm => hs ?_, h.first, h.last⟩
  obtain ⟨a, b, rfl, _⟩ := h.around
  simp [hm]

theorem given_time {f64 : F64Secs} {s : Str} {d : Doc} (h : IniText s d) {n o : String} {k : Nat} (hk : k < 2 ^ 32) {t : Duration}
    (hg : Given d n o (DurationText f64) (k * 1000000000) t) : TimeOf f64 t := by
  rcases hg with ⟨v, h1, h2⟩ | ⟨_, rfl⟩
  · exact ⟨v, setting_oneLine h h1, h2⟩
  · exact seconds_timeOf f64 hk

theorem given_plain {s : Str} {d : Doc} (h : IniText s d) {n o : String} {dflt t : Str} (hd : PlainText dflt) (hg : Given d n o Trimmed dflt t) :
    PlainText t := by
  rcases hg with ⟨v, h1, h2⟩ | ⟨_, rfl⟩
  · exact plainText_trimmed (setting_oneLine h h1) h2
  · exact hd

/-- What a file describes is valid. -/
theorem described_valid {f64 : F64Secs} {s : Str} {d : Doc} {c : Config} (hs : IniText s d) (h : ConfOf f64 d c) : ValidConf f64 c := by
  have hnil : PlainText [] := ⟨by simp, by simp, by simp⟩
  refine ⟨?_, given_time hs (k := 5) (by decide) h.controlTimeout, ?_, ?_, ?_, ?_, ?_⟩
  · rcases h.port with ⟨v, _, items, _, _, _, hp⟩ | ⟨_, e⟩
    · exact protocols_some hp
    · rw [e]; exact .inl rfl
  · intro u k hu
    obtain ⟨n, v, _, _, hk⟩ := (h.keys.keys u k).1 hu
    exact hk.2
  · intro id r hr
    obtain ⟨n, v, _, _, items, _, _, _, _, hp⟩ := (h.resources.resources id r).1 hr
    exact protocols_some hp
  · intro id id' r r' h1 h2 h3
    obtain ⟨n, v, a1, a2, a3⟩ := (h.resources.resources id r).1 h1
    obtain ⟨n', v', b1, b2, b3⟩ := (h.resources.resources id' r').1 h2
    have := h.resources.ports n v n' v' r r' a1 b1 a3 b3 h3
    subst this
    exact resourceId_raw_inj _ _ (idText_unique a2 b2)
  · intro hv
    have a0 := h.defaultUser
    have a1 := h.nftExe
    have a2 := h.nftFamily
    have a3 := h.nftTable
    have a4 := h.nftChainInput
    have a5 := h.nftTimeout
    rw [if_neg (by rw [hv]; simp)] at a0
    rw [if_pos hv] at a1 a2 a3 a4 a5
    refine ⟨a0, given_plain hs ⟨by decide, by decide, by decide⟩ a1, ?_, given_plain hs hnil a3, given_plain hs hnil a4,
      given_time hs (k := 600) (by decide) a5⟩
    rcases a2 with ⟨v, _, _, hf⟩ | ⟨_, hf⟩
    · rcases hf with hf | hf | hf <;> rw [hf] <;> decide
    · rw [hf]; decide
  · intro hv
    have a1 := h.nftExe
    have a2 := h.nftFamily
    have a3 := h.nftTable
    have a4 := h.nftChainInput
    have a5 := h.nftTimeout
    rw [if_neg (by rw [hv]; simp)] at a1 a2 a3 a4 a5
    exact ⟨a1, a2, a3, a4, a5⟩

theorem validConf_same {f64 : F64Secs} {c c' : Config} (h : SameConf c' c) (hv : ValidConf f64 c') : ValidConf f64 c := by
  obtain ⟨h1, h2, h3, h4, h5, h6, h7, h8, h9, h10, h11, h12, h13, h14⟩ := h
  obtain ⟨v1, v2, v3, v4, v5, v6, v7⟩ := hv
  rw [h3] at v1
  rw [h4] at v2
  simp only [h7] at v3
  simp only [h8] at v4 v5
  rw [h1, h9, h10, h11, h12, h13, h14] at v6
  rw [h1, h10, h11, h12, h13, h14] at v7
  exact ⟨v1, v2, v3, v4, v5, v6, v7⟩

/-- **C93**. The configurations that can be loaded from some text are exactly the valid ones: every choice of settings, users, keys and resources that
makes sense can be written down, in a text that is loaded in every order of the hash maps; and nothing else ever comes out of a file. (The two
hypotheses say that the lists stand for maps.) -/
theorem C93_expressible (f64 : F64Secs) (c : Config) (hk : (c.keys.map (·.1)).Nodup) (hr : (c.resources.map (·.1)).Nodup) :
    (∃ text, ∀ order, IsOrder order → ∀ path, ∃ c', (Config.new c.variant).load f64 order path (.text text) = (.ok (), c') ∧ SameConf c' c) ↔
      ValidConf f64 c := by
  constructor
  · rintro ⟨text, h⟩
    obtain ⟨c', hl, hsame⟩ := h id id_order []
    refine validConf_same hsame ?_
    rcases load_ok_iff.1 hl with ⟨ini, c1, h1, _⟩ | ⟨_, h2, rfl⟩
    · obtain ⟨d, hd, _⟩ := newFromFile_ok h1
      have := (C54_loaded_is_described id_order hd hl).1
      obtain ⟨s, _, hs⟩ := hd
      exact described_valid hs this
    · refine ⟨.inl rfl, seconds_timeOf f64 (n := 5) (by decide), ?_, ?_, ?_, ?_, ?_⟩
      · intro u k hu; cases hu
      · intro u k hu; cases hu
      · intro u _ k _ hu; cases hu
      · intro hv; exact absurd hv h2
      · intro _; exact ⟨rfl, rfl, rfl, rfl, rfl⟩
  · intro h
    obtain ⟨s, d, hs, hc⟩ := confDoc_describes hk hr h
    refine ⟨s, fun order ho path => ?_⟩
    exact C54_described_is_loaded ho ⟨s, rfl, hs⟩ hc rfl

/-- C93: whole seconds below 2³² are among the times that can be written, without any use of floating-point numbers. -/
theorem C93_seconds (f64 : F64Secs) {n : Nat} (h : n < 2 ^ 32) : TimeOf f64 (n * 1000000000) := seconds_timeOf f64 h

/-- A configuration with strange names: blanks, a carriage return and a comment sign inside; two resources. -/
def oddConf : Config :=
  { Config.new .Server with
    debug := true, port := ⟨0, false, true⟩, controlTimeout := 0, seccomp := .Kill, keys := [(⟨0xFFFFFFFF⟩, exampleKey), (⟨0⟩, exampleKey)],
    resources := [(⟨1⟩, ⟨65535, true, true, [⟨7⟩, ⟨7⟩]⟩), (⟨2⟩, ⟨0, false, true, []⟩)], nftExe := "[exe] # = 1".toList, nftFamily := "ip6".toList,
    nftTable := "a\rb c".toList, nftTimeout := 4294967295000000000 }

example : ValidConf noF64 oddConf ∧ ∃ text, ∀ order, IsOrder order → ∀ path, ∃ c',
    (Config.new .Server).load noF64 order path (.text text) = (.ok (), c') ∧ SameConf c' oddConf := by
  have h : ValidConf noF64 oddConf := by
    refine ⟨.inr rfl, C93_seconds noF64 (n := 0) (by decide), ?_, ?_, ?_, fun _ => ⟨rfl, ⟨by decide, by decide, by decide⟩, by decide,
      ⟨by decide, by decide, by decide⟩, ⟨by decide, by decide, by decide⟩, C93_seconds noF64 (n := 4294967295) (by decide)⟩, fun h => (by cases h)⟩
    · intro u k hu
      have := assocGet_mem hu
      simp only [oddConf, List.mem_cons, Prod.mk.injEq, List.not_mem_nil, or_false] at this
      rcases this with ⟨_, rfl⟩ | ⟨_, rfl⟩ <;> decide
    · intro id r hr
      have := assocGet_mem hr
      simp only [oddConf, List.mem_cons, Prod.mk.injEq, List.not_mem_nil, or_false] at this
      rcases this with ⟨_, rfl⟩ | ⟨_, rfl⟩ <;> decide
    · intro id id' r r' h1 h2 h3
      have h1 := assocGet_mem h1
      have h2 := assocGet_mem h2
      simp only [oddConf, List.mem_cons, Prod.mk.injEq, List.not_mem_nil, or_false] at h1 h2
      rcases h1 with ⟨rfl, rfl⟩ | ⟨rfl, rfl⟩ <;> rcases h2 with ⟨rfl, rfl⟩ | ⟨rfl, rfl⟩ <;> first | rfl | cases h3
  exact ⟨h, (C93_expressible noF64 oddConf (by decide) (by decide)).2 h⟩

/-! ## C94: what in a file does not matter -/

theorem trim_eq_of_same {v v' : Str} (h : SameButBlanks v v') : trim v = trim v' := by
  obtain ⟨t, h1, h2⟩ := h
  rw [trimmed_iff] at h1 h2
  rw [h1, h2]

theorem sameButBlanks_symm {v v' : Str} (h : SameButBlanks v v') : SameButBlanks v' v := by
  obtain ⟨t, h1, h2⟩ := h
  exact ⟨t, h2, h1⟩

theorem trim_blank_left {a : Str} (ha : Blank a) (s : Str) : trim (a ++ s) = trim s := by
  unfold trim
  rw [trimStart_blank_append ha]

theorem trim_blank_right {b : Str} (hb : Blank b) (s : Str) : trim (s ++ b) = trim s := by
  obtain ⟨x, y, e, hx, hy⟩ := (trim_spec s).around
  have h : Trimmed (s ++ b) (trim s) := by
    refine ⟨⟨x, y ++ b, ?_, hx, ?_⟩, (trim_spec s).first, (trim_spec s).last⟩
    · rw [← List.append_assoc, ← e]
    · intro c hc
      rcases List.mem_append.1 hc with hc | hc
      · exact hy c hc
      · exact hb c hc
  exact trimmed_iff.1 h

theorem blank_no {c : Char} (hc : isWhitespace c = false) {w : Str} (hw : Blank w) : c ∉ w := by
  intro h
  rw [hw c h] at hc
  cases hc

theorem splitOn_left {c : Char} (hc : isWhitespace c = false) {w : Str} (hw : Blank w) (s : Str) :
    ∃ p ps, splitOn c s = p :: ps ∧ splitOn c (w ++ s) = (w ++ p) :: ps := by
  have h : ∀ {s : Str} {ps : List Str}, Pieces c s ps → ∃ p qs, ps = p :: qs ∧ Pieces c (w ++ s) ((w ++ p) :: qs) := by
    intro s ps h
    cases h with
    | last h => exact ⟨_, _, rfl, .last (by simp only [List.mem_append, not_or]; exact ⟨blank_no hc hw, h⟩)⟩
    | @cons p s' ps h h2 =>
      refine ⟨_, _, rfl, ?_⟩
      rw [← List.append_assoc]
      exact .cons (by simp only [List.mem_append, not_or]; exact ⟨blank_no hc hw, h⟩) h2
  obtain ⟨p, qs, e, h2⟩ := h (pieces_iff.2 (rfl : splitOn c s = _))
  exact ⟨p, qs, e, pieces_iff.1 h2⟩

theorem splitOn_right {c : Char} (hc : isWhitespace c = false) {w : Str} (hw : Blank w) (s : Str) :
    ∃ ps p, splitOn c s = ps ++ [p] ∧ splitOn c (s ++ w) = ps ++ [p ++ w] := by
  have h : ∀ {s : Str} {ps : List Str}, Pieces c s ps → ∃ qs p, ps = qs ++ [p] ∧ Pieces c (s ++ w) (qs ++ [p ++ w]) := by
    intro s ps h
    induction h with
    | last h => exact ⟨[], _, rfl, .last (by simp only [List.mem_append, not_or]; exact ⟨h, blank_no hc hw⟩)⟩
    | @cons p s' ps h _ ih =>
      obtain ⟨qs, q, e, h2⟩ := ih
      refine ⟨p :: qs, q, by rw [e]; rfl, ?_⟩
      rw [List.append_assoc]
      exact .cons h h2
  obtain ⟨qs, p, e, h2⟩ := h (pieces_iff.2 (rfl : splitOn c s = _))
  exact ⟨qs, p, e, pieces_iff.1 h2⟩

theorem splitTrim_left {c : Char} (hc : isWhitespace c = false) {w : Str} (hw : Blank w) (s : Str) :
    (splitOn c (w ++ s)).map trim = (splitOn c s).map trim := by
  obtain ⟨p, ps, e1, e2⟩ := splitOn_left hc hw s
  rw [e1, e2, List.map_cons, List.map_cons, trim_blank_left hw]

theorem splitTrim_right {c : Char} (hc : isWhitespace c = false) {w : Str} (hw : Blank w) (s : Str) :
    (splitOn c (s ++ w)).map trim = (splitOn c s).map trim := by
  obtain ⟨ps, p, e1, e2⟩ := splitOn_right hc hw s
  rw [e1, e2, List.map_append, List.map_append, List.map_cons, List.map_cons, trim_blank_right hw]

theorem parseItem_left {w : Str} (hw : Blank w) (p : Str) : parseItem (w ++ p) = parseItem p := by
  rcases item_cases p with h | ⟨k, v, rfl, h⟩
  · rw [parseItem_values h, parseItem_values (by simp only [List.mem_append, not_or]; exact ⟨blank_no (by decide) hw, h⟩), splitTrim_left (by decide) hw]
  · rw [← List.append_assoc, parseItem_kv h, parseItem_kv (by simp only [List.mem_append, not_or]; exact ⟨blank_no (by decide) hw, h⟩),
      trim_blank_left hw]
    unfold kvItem
    rw [trim_blank_left hw]

theorem parseItem_right {w : Str} (hw : Blank w) (p : Str) : parseItem (p ++ w) = parseItem p := by
  rcases item_cases p with h | ⟨k, v, rfl, h⟩
  · rw [parseItem_values h, parseItem_values (by simp only [List.mem_append, not_or]; exact ⟨h, blank_no (by decide) hw⟩), splitTrim_right (by decide) hw]
  · rw [List.append_assoc, List.cons_append, parseItem_kv h, parseItem_kv h]
    unfold kvItem
    have hm : ',' ∈ v ++ w ↔ ',' ∈ v := by
      simp only [List.mem_append, blank_no (show isWhitespace ',' = false by decide) hw, or_false]
    simp only [hm, splitTrim_right (c := ',') (by decide) hw, trim_blank_right hw]

theorem parseItems_last {w : Str} (hw : Blank w) (ps : List Str) (p : Str) : parseItems (ps ++ [p ++ w]) = parseItems (ps ++ [p]) := by
  induction ps with
  | nil => simp only [List.nil_append, parseItems, parseItem_right hw]
  | cons q qs ih => simp only [List.cons_append, parseItems, ih]

theorem parseMap_left {w : Str} (hw : Blank w) (s : Str) : parseMap (w ++ s) = parseMap s := by
  obtain ⟨p, ps, e1, e2⟩ := splitOn_left (c := '/') (by decide) hw s
  unfold parseMap
  rw [e1, e2]
  simp only [parseItems, parseItem_left hw]

theorem parseMap_right {w : Str} (hw : Blank w) (s : Str) : parseMap (s ++ w) = parseMap s := by
  obtain ⟨ps, p, e1, e2⟩ := splitOn_right (c := '/') (by decide) hw s
  unfold parseMap
  rw [e1, e2, parseItems_last hw]

theorem parseMap_same {v v' : Str} (h : SameButBlanks v v') : parseMap v = parseMap v' := by
  obtain ⟨t, h1, h2⟩ := h
  obtain ⟨a, b, rfl, ha, hb⟩ := h1.around
  obtain ⟨a', b', rfl, ha', hb'⟩ := h2.around
  rw [parseMap_right hb, parseMap_right hb', parseMap_left ha, parseMap_left ha']

theorem trimmed_same {v v' t : Str} (h : SameButBlanks v v') (ht : Trimmed v t) : Trimmed v' t := by
  rw [trimmed_iff] at ht ⊢
  rw [← trim_eq_of_same h, ht]

theorem wordText_same {v v' : Str} (h : SameButBlanks v v') {w : String} (hw : WordText v w) : WordText v' w := by
  obtain ⟨t, h1, h2⟩ := hw
  exact ⟨t, trimmed_same h h1, h2⟩

theorem boolText_same {v v' : Str} (h : SameButBlanks v v') (b : Bool) (hw : BoolText v b) : BoolText v' b := by
  cases b
  · exact hw.imp (wordText_same h) (Or.imp (wordText_same h) (Or.imp (wordText_same h) (wordText_same h)))
  · exact hw.imp (wordText_same h) (Or.imp (wordText_same h) (Or.imp (wordText_same h) (wordText_same h)))

theorem policyText_same {v v' : Str} (h : SameButBlanks v v') (p : ErrorPolicy) (hw : PolicyText v p) : PolicyText v' p := by
  cases p <;> exact wordText_same h hw

theorem seccompText_same {v v' : Str} (h : SameButBlanks v v') (p : Seccomp) (hw : SeccompText v p) : SeccompText v' p := by
  cases p <;> exact wordText_same h hw

theorem natText_same {v v' : Str} (h : SameButBlanks v v') {n : Nat} (hw : NatText v n) : NatText v' n := by
  obtain ⟨t, h1, h2⟩ := hw
  exact ⟨t, trimmed_same h h1, h2⟩

theorem durationText_same {f64 : F64Secs} {v v' : Str} (h : SameButBlanks v v') (d : Duration) (hw : DurationText f64 v d) : DurationText f64 v' d := by
  rcases hw with ⟨n, h1, h2⟩ | ⟨h1, t, h2, h3⟩
  · exact .inl ⟨n, natText_same h h1, h2⟩
  · exact .inr ⟨fun ⟨n, h4, h5⟩ => h1 ⟨n, natText_same (sameButBlanks_symm h) h4, h5⟩, t, trimmed_same h h2, h3⟩

theorem portText_same {v v' : Str} (h : SameButBlanks v v') (p : ControlPort) (hw : PortText v p) : PortText v' p := by
  rw [← parsePort_iff] at hw ⊢
  unfold parsePort at hw ⊢
  rw [← parseMap_same h]
  exact hw

theorem resourceText_same {v v' : Str} (h : SameButBlanks v v') {r : Resource} (hw : ResourceText v r) : ResourceText v' r := by
  rw [← parseResource_iff] at hw ⊢
  unfold parseResource at hw ⊢
  rw [← parseMap_same h]
  exact hw

theorem keyText_same {v v' : Str} (h : SameButBlanks v v') {k : Key} (hw : KeyText v k) : KeyText v' k := by
  obtain ⟨⟨t, h1, h2⟩, h3⟩ := hw
  exact ⟨⟨t, trimmed_same h h1, h2⟩, h3⟩

theorem given_same {α : Type} {d d' : Doc} (h : SettingsIn d d') (h' : SettingsIn d' d) {n o : String} {P : Str → α → Prop}
    (hP : ∀ v v', SameButBlanks v v' → ∀ x, P v x → P v' x) {dflt x : α} (hg : Given d n o P dflt x) : Given d' n o P dflt x := by
  rcases hg with ⟨v, h1, h2⟩ | ⟨h1, h2⟩
  · obtain ⟨v', h3, h4⟩ := h _ _ _ h1
    exact .inl ⟨v', h3, hP v v' h4 x h2⟩
  · refine .inr ⟨fun ⟨v, hv⟩ => h1 ?_, h2⟩
    obtain ⟨v', h3, _⟩ := h' _ _ _ hv
    exact ⟨v', h3⟩

theorem confOf_same {f64 : F64Secs} {d d' : Doc} (h : SettingsIn d d') (h' : SettingsIn d' d) {c : Config} (hc : ConfOf f64 d c) :
    ConfOf f64 d' c := by
  have hsrv : ∀ {P Q Q' : Prop} [Decidable P], (Q → Q') → ∀ {N : Prop}, (if P then Q else N) → if P then Q' else N := by
    intro P Q Q' _ h1 N h2
    split
    · rw [if_pos (by assumption)] at h2; exact h1 h2
    · rw [if_neg (by assumption)] at h2; exact h2
  have htrim : ∀ v v' : Str, SameButBlanks v v' → ∀ x, Trimmed v x → Trimmed v' x := fun _ _ h _ => trimmed_same h
  refine ⟨given_same h h' (fun _ _ => boolText_same) hc.debug, given_same h h' (fun _ _ => portText_same) hc.port,
    given_same h h' (fun _ _ => durationText_same) hc.controlTimeout, given_same h h' (fun _ _ => policyText_same) hc.controlErrorPolicy,
    given_same h h' (fun _ _ => seccompText_same) hc.seccomp, ⟨?_, ?_, ?_⟩, hc.keysNodup, ⟨?_, ?_, ?_, ?_⟩, hc.resourcesNodup,
    hsrv (given_same h h' fun _ _ h _ ⟨t, h1, h2⟩ => ⟨t, trimmed_same h h1, h2⟩) hc.defaultUser, hsrv (given_same h h' htrim) hc.nftExe,
    hsrv (given_same h h' fun _ _ h _ ⟨h1, h2⟩ => ⟨trimmed_same h h1, h2⟩) hc.nftFamily, hsrv (given_same h h' htrim) hc.nftTable,
    hsrv (given_same h h' htrim) hc.nftChainInput, hsrv (given_same h h' (fun _ _ => durationText_same)) hc.nftTimeout⟩
  · intro n v hs
    obtain ⟨v', h1, h2⟩ := h' _ _ _ hs
    obtain ⟨x, k, h3, h4⟩ := hc.keys.valid n v' h1
    exact ⟨x, k, h3, keyText_same (sameButBlanks_symm h2) h4⟩
  · intro n v n' v' x hs hs' hx hx'
    obtain ⟨_, h1, _⟩ := h' _ _ _ hs
    obtain ⟨_, h2, _⟩ := h' _ _ _ hs'
    exact hc.keys.distinct _ _ _ _ x h1 h2 hx hx'
  · intro u k
    rw [hc.keys.keys u k]
    constructor
    · rintro ⟨n, v, h1, h2, h3⟩
      obtain ⟨v', h4, h5⟩ := h _ _ _ h1
      exact ⟨n, v', h4, h2, keyText_same h5 h3⟩
    · rintro ⟨n, v, h1, h2, h3⟩
      obtain ⟨v', h4, h5⟩ := h' _ _ _ h1
      exact ⟨n, v', h4, h2, keyText_same h5 h3⟩
  · intro n v hs
    obtain ⟨v', h1, h2⟩ := h' _ _ _ hs
    obtain ⟨x, k, h3, h4⟩ := hc.resources.valid n v' h1
    exact ⟨x, k, h3, resourceText_same (sameButBlanks_symm h2) h4⟩
  · intro n v n' v' x hs hs' hx hx'
    obtain ⟨_, h1, _⟩ := h' _ _ _ hs
    obtain ⟨_, h2, _⟩ := h' _ _ _ hs'
    exact hc.resources.distinct _ _ _ _ x h1 h2 hx hx'
  · intro n v n' v' r r' hs hs' hr hr' hp
    obtain ⟨w, h1, h2⟩ := h' _ _ _ hs
    obtain ⟨w', h3, h4⟩ := h' _ _ _ hs'
    exact hc.resources.ports _ _ _ _ r r' h1 h3 (resourceText_same h2 hr) (resourceText_same h4 hr') hp
  · intro u k
    rw [hc.resources.resources u k]
    constructor
    · rintro ⟨n, v, h1, h2, h3⟩
      obtain ⟨v', h4, h5⟩ := h _ _ _ h1
      exact ⟨n, v', h4, h2, resourceText_same h5 h3⟩
    · rintro ⟨n, v, h1, h2, h3⟩
      obtain ⟨v', h4, h5⟩ := h' _ _ _ h1
      exact ⟨n, v', h4, h2, resourceText_same h5 h3⟩

theorem sameConf_refl (c : Config) : SameConf c c := ⟨rfl, rfl, rfl, rfl, rfl, rfl, fun _ => rfl, fun _ => rfl, rfl, rfl, rfl, rfl, rfl, rfl⟩

theorem sameConf_symm {a b : Config} (h : SameConf a b) : SameConf b a := by
  obtain ⟨h1, h2, h3, h4, h5, h6, h7, h8, h9, h10, h11, h12, h13, h14⟩ := h
  exact ⟨h1.symm, h2.symm, h3.symm, h4.symm, h5.symm, h6.symm, fun u => (h7 u).symm, fun u => (h8 u).symm, h9.symm, h10.symm, h11.symm, h12.symm,
    h13.symm, h14.symm⟩

theorem load_same_settings {f64 : F64Secs} {order order' : IterOrder} (ho : IsOrder order) (ho' : IsOrder order') {c : Config} {path : Str}
    {file file' : FileContent} {d d' : Doc} (hd : FileDoc file d) (hd' : FileDoc file' d') (h : SettingsIn d d') (h' : SettingsIn d' d) {c1 : Config}
    (hl : c.load f64 order path file = (.ok (), c1)) : ∃ c2, c.load f64 order' path file' = (.ok (), c2) ∧ SameConf c2 c1 := by
  obtain ⟨h1, h2, _⟩ := C54_loaded_is_described ho hd hl
  exact C54_described_is_loaded ho' hd' (confOf_same h h' h1) h2

/-- **C94**. Only the settings matter: two well-formed files with the same settings, up to blanks around the values, are both refused, or both loaded
with the same configuration. So neither the order of sections and of lines, nor overridden assignments, nor empty sections, nor unused settings'
places, nor the order in which the hash maps are read matters. -/
theorem C94_same_settings {f64 : F64Secs} {order order' : IterOrder} (ho : IsOrder order) (ho' : IsOrder order') (c : Config) (path : Str)
    {file file' : FileContent} {d d' : Doc} (hd : FileDoc file d) (hd' : FileDoc file' d') (h : SettingsIn d d') (h' : SettingsIn d' d) :
    (c.load f64 order path file).1 = (c.load f64 order' path file').1 ∧
      SameConf (c.load f64 order path file).2 (c.load f64 order' path file').2 := by
  have n1 := C33_failure_changes_nothing f64 order c path file
  have n2 := C33_failure_changes_nothing f64 order' c path file'
  cases e : c.load f64 order path file with
  | mk r c1 =>
    cases e' : c.load f64 order' path file' with
    | mk r' c2 =>
      rw [e] at n1
      rw [e'] at n2
      simp only at n1 n2 ⊢
      cases r with
      | panic => exact absurd rfl n1.1
      | ok u =>
        obtain ⟨c3, h1, h2⟩ := load_same_settings ho ho' hd hd' h h' e
        rw [e'] at h1
        injection h1 with h1 h3
        subst h1 h3
        exact ⟨rfl, sameConf_symm h2⟩
      | err =>
        cases r' with
        | panic => exact absurd rfl n2.1
        | ok u =>
          obtain ⟨c3, h1, h2⟩ := load_same_settings ho' ho hd' hd h' h e'
          rw [e] at h1
          injection h1 with h1 _
          cases h1
        | err =>
          rw [n1.2 (by simp), n2.2 (by simp)]
          exact ⟨rfl, sameConf_refl c⟩

theorem rearranged_lastValue {as as' : List (Str × Str)} (h : Rearranged as as') {n v : Str} (hv : LastValue as n v) : LastValue as' n v := by
  have hn : (as'.map (·.1)).Nodup := (h.1.map _).nodup_iff.1 h.2
  exact (lastValue_nodup hn).2 (h.1.mem_iff.1 (lastValue_mem hv))

/-- C94: so the sections may come in any order, and the lines of a section too if no name is assigned twice. -/
theorem C94_any_order {f64 : F64Secs} {order order' : IterOrder} (ho : IsOrder order) (ho' : IsOrder order') (c : Config) (path : Str)
    {file file' : FileContent} {d d' : Doc} (hd : FileDoc file d) (hd' : FileDoc file' d') (h : SectionsIn d d') (h' : SectionsIn d' d) :
    (c.load f64 order path file).1 = (c.load f64 order' path file').1 ∧
      SameConf (c.load f64 order path file).2 (c.load f64 order' path file').2 := by
  have key : ∀ {d d' : Doc}, SectionsIn d d' → SettingsIn d d' := by
    intro d d' h n o v ⟨as, h1, h2⟩
    obtain ⟨as', h3, h4⟩ := h n as h1
    have hb : SameButBlanks v v := ⟨trim v, trim_spec v, trim_spec v⟩
    rcases h4 with rfl | h4
    · exact ⟨v, ⟨as, h3, h2⟩, hb⟩
    · exact ⟨v, ⟨as', h3, rearranged_lastValue h4 h2⟩, hb⟩
  exact C94_same_settings ho ho' c path hd hd' (key h) (key h')

theorem iniLine_blank {w : Str} (hw : Blank w) (st : IniState) (l : Str) : iniLine st (w ++ l) = iniLine st l := by
  unfold iniLine
  rw [trimStart_blank_append hw]

theorem iniLines_layout {ls ls' : List Str} (h : SameLayout ls ls') : ∀ st, iniLines st ls = iniLines st ls' := by
  induction h with
  | nil => intro _; rfl
  | ignoredLeft hl _ ih => intro st; rw [iniLines, iniLine_ignored hl]; exact ih st
  | ignoredRight hl _ ih => intro st; rw [iniLines, iniLine_ignored hl]; exact ih st
  | line hw hw' _ ih =>
    intro st
    rw [iniLines, iniLines, iniLine_blank hw, iniLine_blank hw']
    congr 1
    funext st'
    exact ih st'

/-- C94: comments, empty lines, indentation and the kind of line ends never matter, not even in files that are not well-formed: both texts have
exactly the same outcome. -/
theorem C94_layout (f64 : F64Secs) (order : IterOrder) (c : Config) (path : Str) {s s' : Str} {ls ls' : List Str} (h1 : TextLines s ls)
    (h2 : TextLines s' ls') (h : SameLayout ls ls') : c.load f64 order path (.text s) = c.load f64 order path (.text s') := by
  rw [textLines_iff] at h1 h2
  have e : Ini.newFromFile (.text s) = Ini.newFromFile (.text s') := by
    show Ini.parseStr s = Ini.parseStr s'
    unfold Ini.parseStr
    rw [h1, h2, iniLines_layout h]
  unfold Config.load Config.loadIni
  rw [e]

instance (s : Str) : Decidable (Blank s) := inferInstanceAs (Decidable (∀ c ∈ s, isWhitespace c = true))

/-- Two texts with the same settings: other order, other line ends, blanks, comments and an overridden line. -/
def tidyText : Str := "[GENERAL]\nport=5801/udp\ndebug=yes\n".toList

def messyText : Str := "# x\r\n\t[GENERAL]\r\ndebug=maybe\n debug = yes \n\nport\u3000= 5801/udp".toList

def tidyDoc : Doc := [("GENERAL".toList, [("port".toList, "5801/udp".toList), ("debug".toList, "yes".toList)])]

def messyDoc : Doc :=
  [("GENERAL".toList, [("debug".toList, "maybe".toList), ("debug".toList, " yes ".toList), ("port".toList, " 5801/udp".toList)])]

theorem tidy_doc : FileDoc (.text tidyText) tidyDoc := by
  refine ⟨_, rfl, _, textLines_iff.2 rfl, ?_, by decide⟩
  have e : lines tidyText = "[GENERAL]".toList :: ["port=5801/udp".toList, "debug=yes".toList] ++ [] := by decide +kernel
  rw [e]
  refine .sect ⟨[], [], rfl, by decide, by decide, by decide⟩ (.assign ⟨[], [], rfl, by decide, by decide, by decide, ⟨'p', by decide⟩, ⟨'t', by decide⟩⟩
    (.assign ⟨[], [], rfl, by decide, by decide, by decide, ⟨'d', by decide⟩, ⟨'g', by decide⟩⟩ .nil)) .nil

theorem messy_doc : FileDoc (.text messyText) messyDoc := by
  refine ⟨_, rfl, _, textLines_iff.2 rfl, ?_, by decide⟩
  have e : lines messyText = "# x".toList :: ("\t[GENERAL]".toList ::
      ["debug=maybe".toList, " debug = yes ".toList, "".toList, "port\u3000= 5801/udp".toList] ++ []) := by decide +kernel
  rw [e]
  refine .ignored (.inr ⟨[], " x".toList, rfl, by decide⟩) (.sect ⟨['\t'], [], rfl, by decide, by decide, by decide⟩
    (.assign ⟨[], [], rfl, by decide, by decide, by decide, ⟨'d', by decide⟩, ⟨'g', by decide⟩⟩
    (.assign ⟨[' '], [' '], rfl, by decide, by decide, by decide, ⟨'d', by decide⟩, ⟨'g', by decide⟩⟩
    (.ignored (.inl (by decide)) (.assign ⟨[], ['\u3000'], rfl, by decide, by decide, by decide, ⟨'p', by decide⟩, ⟨'t', by decide⟩⟩ .nil)))) .nil)

theorem tidy_messy : SettingsIn tidyDoc messyDoc ∧ SettingsIn messyDoc tidyDoc := by
  have y : SameButBlanks "yes".toList " yes ".toList := ⟨"yes".toList, trimmed_iff.2 (by decide +kernel), trimmed_iff.2 (by decide +kernel)⟩
  have p : SameButBlanks "5801/udp".toList " 5801/udp".toList :=
    ⟨"5801/udp".toList, trimmed_iff.2 (by decide +kernel), trimmed_iff.2 (by decide +kernel)⟩
  have g : Setting tidyDoc "GENERAL".toList "debug".toList "yes".toList := ⟨_, .head _, [_], [], rfl, by decide⟩
  have g' : Setting messyDoc "GENERAL".toList "debug".toList " yes ".toList := ⟨_, .head _, [_], [_], rfl, by decide⟩
  have q : Setting tidyDoc "GENERAL".toList "port".toList "5801/udp".toList := ⟨_, .head _, [], [_], rfl, by decide⟩
  have q' : Setting messyDoc "GENERAL".toList "port".toList " 5801/udp".toList := ⟨_, .head _, [_, _], [], rfl, by decide⟩
  constructor
  · rintro n o v ⟨as, h1, h2⟩
    simp only [tidyDoc, List.mem_cons, Prod.mk.injEq, List.not_mem_nil, or_false] at h1
    obtain ⟨rfl, rfl⟩ := h1
    have h3 := lastValue_mem h2
    simp only [List.mem_cons, Prod.mk.injEq, List.not_mem_nil, or_false] at h3
    rcases h3 with ⟨rfl, rfl⟩ | ⟨rfl, rfl⟩
    · exact ⟨_, q', p⟩
    · exact ⟨_, g', y⟩
  · rintro n o v ⟨as, h1, h2⟩
    have h4 : Setting messyDoc n o v := ⟨as, h1, h2⟩
    simp only [messyDoc, List.mem_cons, Prod.mk.injEq, List.not_mem_nil, or_false] at h1
    obtain ⟨rfl, rfl⟩ := h1
    have h3 := lastValue_mem h2
    simp only [List.mem_cons, Prod.mk.injEq, List.not_mem_nil, or_false] at h3
    rcases h3 with ⟨rfl, rfl⟩ | ⟨rfl, rfl⟩ | ⟨rfl, rfl⟩
    · have := setting_unique (by decide) g' h4
      exact absurd this (by decide)
    · exact ⟨_, g, sameButBlanks_symm y⟩
    · exact ⟨_, q, sameButBlanks_symm p⟩

example (order order' : IterOrder) (ho : IsOrder order) (ho' : IsOrder order') :
    ((Config.new .Client).load noF64 order [] (.text tidyText)).1 = ((Config.new .Client).load noF64 order' [] (.text messyText)).1 ∧
    SameConf ((Config.new .Client).load noF64 order [] (.text tidyText)).2 ((Config.new .Client).load noF64 order' [] (.text messyText)).2 :=
  C94_same_settings ho ho' _ _ tidy_doc messy_doc tidy_messy.1 tidy_messy.2

example : ((Config.new .Client).load noF64 id [] (.text messyText)).1 = .ok () ∧
    ((Config.new .Client).load noF64 id [] (.text messyText)).2.port = ⟨5801, false, true⟩ ∧
    ((Config.new .Client).load noF64 id [] (.text messyText)).2.debug = true := by decide +kernel

/-- The order of lines does not matter: the hypothesis of `C94_any_order`. -/
example : SectionsIn tidyDoc [("X".toList, []), ("GENERAL".toList, [("debug".toList, "yes".toList), ("port".toList, "5801/udp".toList)])] := by
  intro n as h
  simp only [tidyDoc, List.mem_cons, Prod.mk.injEq, List.not_mem_nil, or_false] at h
  obtain ⟨rfl, rfl⟩ := h
  exact ⟨_, .tail _ (.head _), .inr ⟨.swap .., by decide⟩⟩

/-- But the order of two assignments to one name does matter, also in the code. -/
example : ((Config.new .Client).load noF64 id [] (.text "[GENERAL]\ndebug=1\ndebug=0\n".toList)).2.debug = false ∧
    ((Config.new .Client).load noF64 id [] (.text "[GENERAL]\ndebug=0\ndebug=1\n".toList)).2.debug = true := by decide +kernel

/-- Layout: even for a text that is refused. -/
example (order : IterOrder) (c : Config) : c.load noF64 order [] (.text "[GENERAL]\nwhat\n".toList) =
    c.load noF64 order [] (.text "# c\r\n  [GENERAL]\r\n\n what".toList) := by
  refine (C94_layout noF64 order c [] (ls := ["[GENERAL]".toList, "what".toList])
    (ls' := ["# c".toList, "  [GENERAL]".toList, [], " what".toList]) (textLines_iff.2 (by decide +kernel)) (textLines_iff.2 (by decide +kernel)) ?_)
  exact .ignoredRight (.inr ⟨[], " c".toList, rfl, by decide⟩) (.line (w := []) (w' := "  ".toList) (l := "[GENERAL]".toList) (by decide) (by decide)
    (.ignoredRight (.inl (by decide)) (.line (w := []) (w' := " ".toList) (l := "what".toList) (by decide) (by decide) .nil)))

/-! ## The files that come with the programs -/

/-- Lines with line feeds. -/
def textOf (ls : List String) : Str := (ls.map fun l => l.toList ++ ['\n']).flatten

/-- A line without line end. -/
def lineOk (l : String) : Bool := !l.toList.contains '\n' && l.toList.getLast? != some '\r'

/-- A line that is empty or begins with a comment sign. -/
def commentLine (l : String) : Bool := l.toList.head? == none || l.toList.head? == some '#'

theorem textLines_textOf {ls : List String} (h : ls.all lineOk = true) : TextLines (textOf ls) (ls.map String.toList) := by
  induction ls with
  | nil => exact .nil
  | cons l ls ih =>
    rw [List.all_cons, Bool.and_eq_true] at h
    have h1 := h.1
    simp only [lineOk, Bool.and_eq_true, Bool.not_eq_true', bne_iff_ne] at h1
    have e : textOf (l :: ls) = l.toList ++ '\n' :: textOf ls := by simp [textOf]
    rw [e]
    exact .lf (by have := h1.1; simpa using this) h1.2 (ih h.2)

theorem layout_comments (ls : List String) :
    SameLayout (ls.map String.toList) ((ls.filter fun l => !commentLine l).map String.toList) := by
  induction ls with
  | nil => exact .nil
  | cons l ls ih =>
    rw [List.map_cons]
    by_cases h : commentLine l = true
    · rw [List.filter_cons_of_neg (by simp [h])]
      refine .ignoredLeft ?_ ih
      simp only [commentLine, Bool.or_eq_true, beq_iff_eq] at h
      rcases h with h | h
      · rw [List.head?_eq_none_iff] at h
        rw [h]
        exact .inl (by intro c hc; cases hc)
      · obtain ⟨r, hr⟩ : ∃ r, l.toList = '#' :: r := by
          cases e : l.toList with
          | nil => rw [e] at h; cases h
          | cons c r => rw [e] at h; injection h with h; exact ⟨r, by rw [h]⟩
        exact .inr ⟨[], r, hr, by intro c hc; cases hc⟩
    · rw [List.filter_cons_of_pos (by simp [h]), List.map_cons]
      exact .line (w := []) (w' := []) (by intro c hc; cases hc) (by intro c hc; cases hc) ih

/-- `/repo/letmeind/letmeind.conf:1-104`, whole. -/
def shippedServer : List String := [
  "# letmeind daemon configuration.",
  "",
  "[GENERAL]",
  "# This config section holds general options.",
  "",
  "# Enable debugging.",
  "# This will print verbose syslog messages while modifying the firewall.",
  "#",
  "# Possible values: true, false",
  "debug = true",
  "",
  "# The control port that letmeind will listen on.",
  "# This is the public internet facing port of the daemon.",
  "#",
  "# Possible values: Any valid port; TCP, UDP or both.",
  "# If TCP and UDP flags are not specified, this defaults to TCP.",
  "port = 5800",
  "#port = 5800 / udp",
  "#port = 5800 / tcp, udp",
  "",
  "# Timeout (in seconds) for receiving and sending messages on the control port.",
  "# If the timeout is exceeded, the TCP connection will be aborted.",
  "#",
  "# Possible values: A positive number of seconds.",
  "control-timeout = 5.0",
  "",
  "# Control port error policy.",
  "#",
  "# If the policy is set to 'always', then error messages will always",
  "# be transmitted to the connected client.",
  "# If the policy is set to 'basic-auth', then error messages are suppressed",
  "# unless the connected client has passed basic authentication.",
  "# If the policy is set to 'full-auth', then error messages are suppressed",
  "# unless the connected client has passed full authentication.",
  "#",
  "# Possible values: always, basic-auth, full-auth",
  "# The recommended value is: basic-auth",
  "# The default value is: always",
  "control-error-policy = always",
  "",
  "# Turn the Linux seccomp feature on.",
  "#",
  "# Possible values: off, log, kill",
  "#",
  "# off: Seccomp turned off.",
  "# log: Seccomp turned off, but access of prohibited syscalls will be logged to syslog.",
  "# kill: Seccomp turned on. Letmeind will be killed if prohibited syscalls are called.",
  "seccomp = off",
  "",
  "",
  "",
  "[NFTABLES]",
  "# This config section holds the nftables firewall configuration.",
  "",
  "# Path to the `nft` nftables executable.",
  "#",
  "# If this is an absolute path (with leading slash), then $PATH will not be searched.",
  "# If this is a relative path (no leading slash), then $PATH and/or the current working",
  "# directory will be searched.",
  "exe = nft",
  "#exe = /usr/sbin/nft",
  "",
  "# nftables chain that letmeinfwd will modity.",
  "family = inet",
  "table = filter",
  "chain-input = LETMEIN-INPUT",
  "",
  "# Timeout of installed knock-open rules.",
  "# Knocked-open ports will be closed again this many seconds after the knocking.",
  "timeout = 600",
  "",
  "",
  "",
  "[KEYS]",
  "# This config section holds the table of users with their corresponding keys.",
  "#",
  "# Use command to generate new keys:",
  "#  letmein gen-key",
  "",
  "# User 00000001:",
  "#00000001 = FFFFFFFFFFFFFFFFFFFFFFFFFFFFFFFFFFFFFFFFFFFFFFFFFFFFFFFFFFFFFFFF",
  "",
  "# User 00000002:",
  "#00000002 = FFFFFFFFFFFFFFFFFFFFFFFFFFFFFFFFFFFFFFFFFFFFFFFFFFFFFFFFFFFFFFFF",
  "",
  "",
  "",
  "[RESOURCES]",
  "# This config section holds the table of knock-able ports.",
  "",
  "# Resource ID '1A' maps to TCP port 2000:",
  "#0000001A = port: 2000",
  "",
  "# Resource ID '1B' maps to TCP port 3500:",
  "#0000001B = port: 3500",
  "",
  "# A resource can be restricted to one or more users.",
  "# Restricted to users 1 and 2:",
  "#0000001C = port: 4500 / users: 00000001, 00000002",
  "# Restricted to user 1:",
  "#0000001D = port: 5500 / users: 00000001",
  "",
  "# Open port 6500 for TCP and UDP.",
  "#0000001E = port: 6500 / tcp,udp"]

/-- `/repo/letmein/letmein.conf:1-72`, whole. -/
def shippedClient : List String := [
  "# letmein client configuration.",
  "",
  "[GENERAL]",
  "# This config section holds general options.",
  "",
  "# Enable debugging.",
  "#",
  "# Possible values: true, false",
  "debug = true",
  "",
  "# The control port that letmein will connect to.",
  "# This is the public internet facing port of the daemon.",
  "#",
  "# Possible values: Any valid TCP/IP port.",
  "port = 5800",
  "",
  "# Timeout (in seconds) for receiving and sending messages on the control port.",
  "# If the timeout is exceeded, the TCP connection will be aborted.",
  "#",
  "# Possible values: A positive number of seconds.",
  "control-timeout = 5.0",
  "",
  "# Turn the Linux seccomp feature on.",
  "#",
  "# Possible values: off, log, kill",
  "#",
  "# off: Seccomp turned off.",
  "# log: Seccomp turned off, but access of prohibited syscalls will be logged to syslog.",
  "# kill: Seccomp turned on. Letmein will be killed if prohibited syscalls are called.",
  "seccomp = off",
  "",
  "",
  "",
  "[CLIENT]",
  "# This config section holds the client configuration.",
  "",
  "# The default user-id to use, if none is explicitly given via -u | --user option.",
  "default-user = 00000001",
  "",
  "",
  "",
  "[KEYS]",
  "# This config section holds the table of users with their corresponding keys.",
  "#",
  "# Use command to generate new keys:",
  "#  letmein gen-key",
  "",
  "# User 00000001:",
  "#00000001 = FFFFFFFFFFFFFFFFFFFFFFFFFFFFFFFFFFFFFFFFFFFFFFFFFFFFFFFFFFFFFFFF",
  "",
  "# User 00000002:",
  "#00000002 = FFFFFFFFFFFFFFFFFFFFFFFFFFFFFFFFFFFFFFFFFFFFFFFFFFFFFFFFFFFFFFFF",
  "",
  "",
  "",
  "[RESOURCES]",
  "# This config section holds the table of knock-able ports.",
  "",
  "# Resource ID '1A' maps to TCP port 2000:",
  "#0000001A = port: 2000",
  "",
  "# Resource ID '1B' maps to TCP port 3500:",
  "#0000001B = port: 3500",
  "",
  "# A resource can be restricted to one or more users.",
  "# Restricted to users 1 and 2:",
  "#0000001C = port: 4500 / users: 00000001, 00000002",
  "# Restricted to user 1:",
  "#0000001D = port: 5500 / users: 00000001",
  "",
  "# Open port 6500 for TCP and UDP.",
  "#0000001E = port: 6500 / tcp,udp"]

theorem load_shipped {f64 : F64Secs} {order : IterOrder} {c : Config} {path : Str} {ls ls' : List String} (h : ls.all lineOk = true)
    (h1 : ls.filter (fun l => !commentLine l) = ls') : c.load f64 order path (.text (textOf ls)) = c.load f64 order path (.text (textOf ls')) := by
  subst h1
  refine C94_layout f64 order c path (textLines_textOf h) (textLines_textOf ?_) (layout_comments ls)
  rw [List.all_eq_true] at h ⊢
  exact fun l hl => h l (List.mem_filter.1 hl).1

/-- Both are loaded; the times with fraction need the parser of floating-point numbers. -/
example : (Config.new .Server).load f64Secs id "/etc".toList (.text (textOf shippedServer)) =
    (.ok (), { Config.new .Server with
      path := some "/etc".toList, debug := true, nftExe := "nft".toList, nftFamily := "inet".toList, nftTable := "filter".toList,
      nftChainInput := "LETMEIN-INPUT".toList }) := by
  rw [load_shipped (ls' := ["[GENERAL]", "debug = true", "port = 5800", "control-timeout = 5.0", "control-error-policy = always", "seccomp = off",
    "[NFTABLES]", "exe = nft", "family = inet", "table = filter", "chain-input = LETMEIN-INPUT", "timeout = 600", "[KEYS]", "[RESOURCES]"])
    (by decide +kernel) (by decide +kernel)]
  decide +kernel

example : (Config.new .Client).load f64Secs id "/etc".toList (.text (textOf shippedClient)) =
    (.ok (), { Config.new .Client with path := some "/etc".toList, debug := true, defaultUser := ⟨1⟩ }) := by
  rw [load_shipped (ls' := ["[GENERAL]", "debug = true", "port = 5800", "control-timeout = 5.0", "seccomp = off", "[CLIENT]",
    "default-user = 00000001", "[KEYS]", "[RESOURCES]"]) (by decide +kernel) (by decide +kernel)]
  decide +kernel

end Letmein.Props
