import Verif.Model.FwAccept
import Verif.Lemmas.ConfText

/-!
# Property C26: who may talk to letmeinfwd
-/

namespace Letmein.Spec

/-- The text before the first colon. -/
def firstField (l : Str) : Str := l.takeWhile (fun c => decide (c ≠ ':'))

/-- The line is `name:password:id` or `name:password:id:...`. -/
structure AccountLine (line name idText : Str) : Prop where
  form : ∃ pw tail, line = name ++ ':' :: (pw ++ ':' :: (idText ++ tail)) ∧ ':' ∉ pw ∧ (tail = [] ∨ ∃ t, tail = ':' :: t)
  noColon : ':' ∉ idText

/-- In the account file the first entry of `name` has this id. -/
def AccountId (data name : Str) (id : Nat) : Prop :=
  ∃ pre line post idText, TextLines data (pre ++ line :: post) ∧ (∀ l ∈ pre, firstField l ≠ name) ∧
    AccountLine line name idText ∧ Number 10 idText id

/-- The text denotes the (possibly negative) number. -/
def SignedNumber (s : Str) (i : Int) : Prop :=
  (∃ n : Nat, Number 10 s n ∧ i = n) ∨ ∃ t, ∃ n : Nat, s = '-' :: t ∧ Numeral 10 t n ∧ i = -(n : Int)

/-- The content of the pid file, apart from surrounding whitespace, denotes the number, which fits into 32 bits with sign. -/
def PidText (p : Str) (pid : Int) : Prop := (∃ t, Trimmed p t ∧ SignedNumber t pid) ∧ -2147483648 ≤ pid ∧ pid ≤ 2147483647

end Letmein.Spec

namespace Letmein.Props

open Letmein Spec

theorem splitN_not_mem {c : Char} {s : Str} (h : c ∉ s) (n : Nat) : splitN c (n + 1) s = [s] := by
  cases n with
  | zero => rfl
  | succ n =>
    have : s.findIdx? (fun x => decide (x = c)) = none := by
      rw [List.findIdx?_eq_none_iff]
      intro x hx
      simp
      exact fun hxc => h (hxc ▸ hx)
    simp only [splitN, this]

theorem splitN_mem {c : Char} {p r : Str} (h : c ∉ p) (n : Nat) : splitN c (n + 2) (p ++ c :: r) = p :: splitN c (n + 1) r := by
  have : (p ++ c :: r).findIdx? (fun x => decide (x = c)) = some p.length := by
    rw [List.findIdx?_append]
    have : p.findIdx? (fun x => decide (x = c)) = none := by
      rw [List.findIdx?_eq_none_iff]
      intro x hx
      simp
      exact fun hxc => h (hxc ▸ hx)
    rw [this]
    simp [List.findIdx?_cons]
  simp only [splitN, this]
  simp

theorem split_cases (c : Char) (s : Str) : c ∉ s ∨ ∃ p r, s = p ++ c :: r ∧ c ∉ p := by
  induction s with
  | nil => simp
  | cons x s ih =>
    by_cases hx : x = c
    · exact .inr ⟨[], s, by simp [hx], by simp⟩
    · rcases ih with h | ⟨p, r, rfl, hp⟩
      · left; simp [h]; exact fun h => hx h.symm
      · right; exact ⟨x :: p, r, rfl, by simp [hp]; exact fun h => hx h.symm⟩

theorem firstField_not_mem {l : Str} (h : ':' ∉ l) : firstField l = l := by
  have := List.takeWhile_append_of_pos (p := fun c => decide (c ≠ ':')) (l₁ := l) (l₂ := []) (by
    intro c hc
    simp
    exact fun e => h (e ▸ hc))
  simpa [firstField] using this

theorem firstField_mem {p r : Str} (h : ':' ∉ p) : firstField (p ++ ':' :: r) = p := by
  unfold firstField
  rw [List.takeWhile_append_of_pos]
  · simp
  · intro c hc
    simp
    exact fun e => h (e ▸ hc)

/-- What `findId` does with one line. -/
theorem findId_cons (k : Nat) (name line : Str) (rest : List Str) (id : UInt32) (hname : ':' ∉ name) :
    findId (k + 4) name (line :: rest) = .ok id ↔
      (∃ t, AccountLine line name t ∧ Number 10 t id.toNat) ∨ (firstField line ≠ name ∧ findId (k + 4) name rest = .ok id) := by
  have hno : ∀ {l t}, AccountLine l name t → firstField l = name := by
    intro l t ⟨⟨pw, tail, h, _⟩, _⟩
    rw [h, firstField_mem hname]
  rcases split_cases ':' line with h | ⟨p, r, rfl, hp⟩
  · rw [findId, splitN_not_mem h (k + 3)]
    simp only
    have hbad : ¬ ∃ t, AccountLine line name t ∧ Number 10 t id.toNat := by
      rintro ⟨t, ⟨⟨pw, tail, hl, _⟩, _⟩, _⟩
      exact h (by rw [hl]; simp)
    by_cases hn : line = name
    · rw [if_pos hn]
      simp only [hbad, false_or]
      rw [firstField_not_mem h]
      simp [hn]
    · rw [if_neg hn, firstField_not_mem h]
      simp [hbad, hn]
  · rw [findId, splitN_mem hp (k + 2), firstField_mem hp]
    simp only
    by_cases hn : p = name
    · rw [if_pos hn]
      subst hn
      simp only [ne_eq, not_true_eq_false, false_and, or_false]
      rcases split_cases ':' r with h2 | ⟨pw, r2, rfl, hpw⟩
      · rw [splitN_not_mem h2 (k + 2)]
        simp only [reduceCtorEq, false_iff]
        rintro ⟨t, ⟨⟨pw, tail, hl, _⟩, _⟩, _⟩
        have := List.append_cancel_left hl
        injection this with _ this
        exact h2 (by rw [this]; simp)
      · rw [splitN_mem hpw (k + 1)]
        have hshape : ∀ t, AccountLine (p ++ ':' :: (pw ++ ':' :: r2)) p t ↔
            ':' ∉ t ∧ (r2 = t ∨ ∃ u, r2 = t ++ ':' :: u) := by
          intro t
          constructor
          · rintro ⟨⟨pw', tail, hl, hpw', htail⟩, hnc⟩
            refine ⟨hnc, ?_⟩
            have := List.append_cancel_left hl
            injection this with _ this
            have h1 := firstField_mem (r := r2) hpw
            rw [this, firstField_mem hpw'] at h1
            subst h1
            have := List.append_cancel_left this
            injection this with _ this
            rcases htail with rfl | ⟨u, rfl⟩
            · left; simpa using this
            · right; exact ⟨u, this⟩
          · rintro ⟨hnc, rfl | ⟨u, rfl⟩⟩
            · exact ⟨⟨pw, [], by simp, hpw, .inl rfl⟩, hnc⟩
            · exact ⟨⟨pw, ':' :: u, by simp, hpw, .inr ⟨u, rfl⟩⟩, hnc⟩
        simp only [hshape]
        rcases split_cases ':' r2 with h3 | ⟨t3, r3, rfl, h3⟩
        · rw [splitN_not_mem h3 (k + 1)]
          simp only
          rw [parseU32Dec_iff]
          constructor
          · intro h; exact ⟨r2, ⟨h3, .inl rfl⟩, h⟩
          · rintro ⟨t, ⟨_, rfl | ⟨u, hu⟩⟩, h⟩
            · exact h
            · exact absurd (by rw [hu]; simp) h3
        · rw [splitN_mem h3 k]
          simp only
          rw [parseU32Dec_iff]
          constructor
          · intro h; exact ⟨t3, ⟨h3, .inr ⟨r3, rfl⟩⟩, h⟩
          · rintro ⟨t, ⟨hnc, ht | ⟨u, hu⟩⟩, h⟩
            · exact absurd (by rw [← ht]; simp) hnc
            · have h1 := firstField_mem (r := r3) h3
              rw [hu, firstField_mem hnc] at h1
              rw [← h1]; exact h
    · rw [if_neg hn]
      constructor
      · intro h; exact .inr ⟨hn, h⟩
      · rintro (⟨t, ha, _⟩ | ⟨_, h⟩)
        · have := hno ha
          rw [firstField_mem hp] at this
          exact absurd this hn
        · exact h

theorem findId_iff (k : Nat) (name : Str) (ls : List Str) (id : UInt32) (hname : ':' ∉ name) :
    findId (k + 4) name ls = .ok id ↔ ∃ pre line post t, ls = pre ++ line :: post ∧ (∀ l ∈ pre, firstField l ≠ name) ∧
      AccountLine line name t ∧ Number 10 t id.toNat := by
  induction ls with
  | nil => simp [findId]
  | cons line rest ih =>
    rw [findId_cons k name line rest id hname, ih]
    constructor
    · rintro (⟨t, h1, h2⟩ | ⟨hne, pre, l, post, t, rfl, h1, h2, h3⟩)
      · exact ⟨[], line, rest, t, rfl, by simp, h1, h2⟩
      · exact ⟨line :: pre, l, post, t, rfl, by simpa [hne] using h1, h2, h3⟩
    · rintro ⟨pre, l, post, t, heq, h1, h2, h3⟩
      cases pre with
      | nil => simp at heq; obtain ⟨rfl, rfl⟩ := heq; exact .inl ⟨t, h2, h3⟩
      | cons x pre =>
        simp at heq
        obtain ⟨rfl, rfl⟩ := heq
        simp at h1
        exact .inr ⟨h1.1, pre, l, post, t, rfl, h1.2, h2, h3⟩

theorem osGet_iff (data : Option Str) (name : Str) (id : UInt32) (hname : ':' ∉ name) :
    (osGetUid data name = .ok id ↔ ∃ d, data = some d ∧ AccountId d name id.toNat) ∧
    (osGetGid data name = .ok id ↔ ∃ d, data = some d ∧ AccountId d name id.toNat) := by
  cases data with
  | none => simp [osGetUid, osGetGid]
  | some d =>
    simp only [osGetUid, osGetGid, Option.some.injEq, exists_eq_left']
    unfold AccountId
    simp only [textLines_iff]
    exact ⟨findId_iff 3 name (lines d) id hname, findId_iff 0 name (lines d) id hname⟩

theorem parseI32_iff (s : Str) (i : Int) :
    parseI32 s = .ok i ↔ SignedNumber s i ∧ -2147483648 ≤ i ∧ i ≤ 2147483647 := by
  have hpos : ∀ s : Str, (do let n ← fromStrRadix 10 0x7FFFFFFF s; R.ok (n : Int)) = R.ok i ↔
      ∃ n : Nat, Number 10 s n ∧ i = n ∧ n ≤ 2147483647 := by
    intro s
    cases hf : fromStrRadix 10 0x7FFFFFFF s with
    | ok n =>
      rw [R.bind_ok]
      have := (fromStrRadix_iff (by decide) (by decide)).1 hf
      constructor
      · intro h; injection h with h; exact ⟨n, this.1, h.symm, this.2⟩
      · rintro ⟨m, hm, rfl, hle⟩
        have := (fromStrRadix_iff (radix := 10) (by decide) (by decide)).2 ⟨hm, hle⟩
        rw [this] at hf
        injection hf with hf
        rw [hf]
    | err =>
      constructor
      · intro h; simp at h
      · rintro ⟨m, hm, rfl, hle⟩
        have := (fromStrRadix_iff (radix := 10) (by decide) (by decide)).2 ⟨hm, hle⟩
        rw [this] at hf; cases hf
    | panic => exact absurd hf fromStrRadix_not_panic
  have hminus : ∀ t n, ¬ Number 10 ('-' :: t) n := by
    rintro t n (h | ⟨t', ht, _⟩)
    · have := ((numeral_iff (by decide)).1 h).2
      simp [digitsValue, toDigit_minus] at this
    · injection ht with ht _; exact absurd ht (by decide)
  unfold parseI32
  split
  · rename_i c rest
    constructor
    · intro h
      cases hp : parseDigits 10 0x80000000 0 (c :: rest) with
      | ok n =>
        rw [hp, R.bind_ok] at h
        injection h with h
        obtain ⟨h1, h2⟩ := (parseDigits_iff (by decide) (by decide)).1 hp
        subst h
        exact ⟨.inr ⟨_, n, rfl, (numeral_iff (by decide)).2 ⟨by simp, h1⟩, rfl⟩, by omega, by omega⟩
      | err => rw [hp] at h; simp at h
      | panic => exact absurd hp parseDigits_not_panic
    · rintro ⟨⟨n, hn, _⟩ | ⟨t, n, ht, hn, rfl⟩, hlo, _⟩
      · exact absurd hn (hminus _ _)
      · injection ht with _ ht
        subst ht
        have := (parseDigits_iff (max := 0x80000000) (radix := 10) (acc := 0) (by decide) (by decide)).2
          ⟨((numeral_iff (by decide)).1 hn).2, by omega⟩
        rw [this, R.bind_ok]
  · rename_i hno
    rw [hpos]
    constructor
    · rintro ⟨n, hn, rfl, hle⟩
      exact ⟨.inl ⟨n, hn, rfl⟩, by omega, by omega⟩
    · rintro ⟨⟨n, hn, rfl⟩ | ⟨t, n, rfl, hn, rfl⟩, _, hhi⟩
      · exact ⟨n, hn, rfl, by omega⟩
      · exfalso
        have := ((numeral_iff (by decide)).1 hn).1
        cases t with
        | nil => exact this rfl
        | cons c t => exact hno c t rfl

theorem getLetmeindPid_iff (pidFile : Option Str) (pid : Int) :
    getLetmeindPid pidFile = .ok pid ↔ ∃ p, pidFile = some p ∧ PidText p pid := by
  cases pidFile with
  | none => simp [getLetmeindPid]
  | some p => simp [getLetmeindPid, parseI32_iff, PidText, trimmed_iff]

theorem fwAccept_iff (testMode : Bool) (ids : UInt32 × UInt32) (cred : Option Cred) (pidFile : Option Str) :
    fwAccept testMode ids cred pidFile = .ok () ↔ ∃ c pid, cred = some c ∧ c.pid = some pid ∧ getLetmeindPid pidFile = .ok pid ∧
      (testMode = true ∨ (c.uid = ids.1 ∧ c.gid = ids.2)) := by
  unfold fwAccept
  cases cred with
  | none => simp
  | some c =>
    cases hp : c.pid with
    | none => simp [hp]
    | some pid =>
      simp only [hp, Option.some.injEq, exists_and_left, exists_eq_left']
      cases hg : getLetmeindPid pidFile with
      | err => simp
      | panic => simp
      | ok e =>
        rw [R.bind_ok]
        by_cases h1 : pid = e
        · by_cases h2 : c.uid = ids.1 <;> by_cases h3 : c.gid = ids.2 <;> cases testMode <;> simp [h1, h2, h3]
        · simp [h1]
          exact fun h => absurd h.symm h1

theorem readEtcPasswd_iff (passwd group : Option Str) (ids : UInt32 × UInt32) :
    readEtcPasswd false passwd group = .ok ids ↔
      osGetUid passwd "letmeind".toList = .ok ids.1 ∧ osGetGid group "letmeind".toList = .ok ids.2 := by
  simp only [readEtcPasswd, Bool.not_false, if_true]
  generalize "letmeind".toList = name
  cases osGetUid passwd name with
  | ok u =>
    rw [R.bind_ok]
    cases osGetGid group name with
    | ok g => rw [R.bind_ok]; simp [Prod.ext_iff]
    | err => simp
    | panic => simp
  | err => simp
  | panic => simp

/-- **C26** (outside test mode). A connection is served if and only if the peer's pid is known and is the number in letmeind's pid
file, and its user and group ids are those of the (first) `letmeind` entries of `/etc/passwd` and `/etc/group`. -/
theorem C26_served_iff (passwd group pidFile : Option Str) (cred : Option Cred) :
    (readEtcPasswd false passwd group >>= fun ids => fwAccept false ids cred pidFile) = .ok () ↔
      ∃ c pid p pw gr, cred = some c ∧ c.pid = some pid ∧ pidFile = some p ∧
        PidText p pid ∧
        (passwd = some pw ∧ AccountId pw "letmeind".toList c.uid.toNat) ∧
        (group = some gr ∧ AccountId gr "letmeind".toList c.gid.toNat) := by
  have hname : ':' ∉ "letmeind".toList := by decide
  have hbind : (readEtcPasswd false passwd group >>= fun ids => fwAccept false ids cred pidFile) = .ok () ↔
      ∃ ids, readEtcPasswd false passwd group = .ok ids ∧ fwAccept false ids cred pidFile = .ok () := by
    cases readEtcPasswd false passwd group with
    | ok ids => rw [R.bind_ok]; simp
    | err => simp
    | panic => simp
  rw [hbind]
  simp only [readEtcPasswd_iff, fwAccept_iff, getLetmeindPid_iff, (osGet_iff _ _ _ hname).1, (osGet_iff _ _ _ hname).2,
    Bool.false_eq_true, false_or]
  constructor
  · rintro ⟨ids, ⟨⟨pw, h1, h2⟩, ⟨gr, h3, h4⟩⟩, c, pid, h5, h6, ⟨p, h7, h8⟩, h9, h10⟩
    exact ⟨c, pid, p, pw, gr, h5, h6, h7, h8, ⟨h1, h9 ▸ h2⟩, h3, h10 ▸ h4⟩
  · rintro ⟨c, pid, p, pw, gr, h5, h6, h7, h8, h1, h3⟩
    exact ⟨(c.uid, c.gid), ⟨⟨pw, h1⟩, ⟨gr, h3⟩⟩, c, pid, h5, h6, ⟨p, h7, h8⟩, rfl, rfl⟩

/-- **C26** (test mode, debug builds only). Even then the pid is checked. -/
theorem C26_test_mode (passwd group pidFile : Option Str) (cred : Option Cred)
    (h : (readEtcPasswd true passwd group >>= fun ids => fwAccept true ids cred pidFile) = .ok ()) :
    ∃ c pid p, cred = some c ∧ c.pid = some pid ∧ pidFile = some p ∧ PidText p pid := by
  have hr : readEtcPasswd true passwd group = .ok (0xFFFFFFFF, 0xFFFFFFFF) := rfl
  rw [hr, R.bind_ok, fwAccept_iff] at h
  obtain ⟨c, pid, h1, h2, h3, _⟩ := h
  obtain ⟨p, h4, h5⟩ := (getLetmeindPid_iff _ _).1 h3
  exact ⟨c, pid, p, h1, h2, h4, h5⟩

/-- **C26** (only one identity). The account files and the pid file determine the admitted pid, uid and gid: two processes that are
both served agree in all three. -/
theorem C26_single_identity (passwd group pidFile : Option Str) (c c' : Cred)
    (h : (readEtcPasswd false passwd group >>= fun ids => fwAccept false ids (some c) pidFile) = .ok ())
    (h' : (readEtcPasswd false passwd group >>= fun ids => fwAccept false ids (some c') pidFile) = .ok ()) : c = c' := by
  cases hr : readEtcPasswd false passwd group with
  | err => rw [hr] at h; simp at h
  | panic => rw [hr] at h; simp at h
  | ok ids =>
    rw [hr, R.bind_ok, fwAccept_iff] at h h'
    obtain ⟨d, pid, h1, h2, h3, h4⟩ := h
    obtain ⟨d', pid', h1', h2', h3', h4'⟩ := h'
    injection h1 with h1
    injection h1' with h1'
    subst h1
    subst h1'
    rw [h3] at h3'
    injection h3' with h3'
    simp at h4 h4'
    obtain ⟨p, u, g⟩ := c
    obtain ⟨p', u', g'⟩ := c'
    simp_all

/-- An `/etc/passwd` with similar names before the real entry. -/
def examplePasswd : Str := "root:x:0:0:root:/root:/bin/sh\nletmeindx:x:5:5::/:\nletmeind:x:977:976::/nonexistent:/bin/false\n".toList
/-- An `/etc/group`. -/
def exampleGroup : Str := "root:x:0:\nletmeind:x:976:\nother:x:977:letmeind".toList

/-- letmeind itself is served; another pid, uid or gid is not, nor anybody while the pid file is empty or unreadable. -/
example :
    (readEtcPasswd false (some examplePasswd) (some exampleGroup)) = .ok (977, 976) ∧
    fwAccept false (977, 976) (some ⟨some 4711, 977, 976⟩) (some "4711\n".toList) = .ok () ∧
    fwAccept false (977, 976) (some ⟨some 4712, 977, 976⟩) (some "4711\n".toList) = .err ∧
    fwAccept false (977, 976) (some ⟨some 4711, 976, 976⟩) (some "4711\n".toList) = .err ∧
    fwAccept false (977, 976) (some ⟨some 4711, 977, 0⟩) (some "4711\n".toList) = .err ∧
    fwAccept false (977, 976) (some ⟨none, 977, 976⟩) (some "4711\n".toList) = .err ∧
    fwAccept false (977, 976) (some ⟨some 0, 977, 976⟩) (some "".toList) = .err ∧
    fwAccept false (977, 976) (some ⟨some 0, 977, 976⟩) none = .err := by
  decide +kernel

end Letmein.Props
