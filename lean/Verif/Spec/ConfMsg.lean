import Verif.Spec.Conf

/-!
# Files that differ in their keys only

A key is 64 hexadecimal digits. What a message may depend on is only what is wrong with a key, not the key itself.
-/

namespace Letmein.Spec

/-- What can be said about the value of an entry in `[KEYS]`. -/
inductive KeyKind where
  | foreign
  | length (n : Nat)
  | noDigit
  | zeros
  | ones
  | key
  deriving DecidableEq

/-- The value is of this kind. -/
inductive KeyLooks : Str → KeyKind → Prop
  | foreign {v t : Str} {c : Char} : Trimmed v t → c ∈ t → 128 ≤ c.toNat → KeyLooks v .foreign
  | length {v t : Str} : Trimmed v t → (∀ c ∈ t, c.toNat < 128) → t.length ≠ 64 → KeyLooks v (.length t.length)
  | noDigit {v t : Str} {c : Char} : Trimmed v t → (∀ c ∈ t, c.toNat < 128) → t.length = 64 → c ∈ t → (∀ d, ¬ IsDigit 16 c d) →
      KeyLooks v .noDigit
  | zeros {v : Str} : Trimmed v (List.replicate 64 '0') → KeyLooks v .zeros
  | ones {v t : Str} : Trimmed v t → t.length = 64 → (∀ c ∈ t, c = 'F' ∨ c = 'f') → KeyLooks v .ones
  | key {v : Str} {k : Key} : KeyText v k → KeyLooks v .key

/-- The same is to be said about both. -/
def AlikeValue (v v' : Str) : Prop := ∃ k, KeyLooks v k ∧ KeyLooks v' k

/-- The lines of two files from some line on, of which only the keys differ; and lines that are none of an `.ini` file may differ in
any way. The first argument is the section they begin in. -/
inductive AlikeFrom : Option Str → List Str → List Str → Prop
  | nil {s : Option Str} : AlikeFrom s [] []
  | header {s : Option Str} {l n : Str} {ls ls' : List Str} : HeaderLine l n → AlikeFrom (some n) ls ls' → AlikeFrom s (l :: ls) (l :: ls')
  | same {s : Option Str} {l : Str} {ls ls' : List Str} : (∀ n, ¬ HeaderLine l n) → AlikeFrom s ls ls' → AlikeFrom s (l :: ls) (l :: ls')
  | key {l l' n v v' : Str} {ls ls' : List Str} : AssignLine l n v → AssignLine l' n v' → AlikeValue v v' →
      AlikeFrom (some "KEYS".toList) ls ls' → AlikeFrom (some "KEYS".toList) (l :: ls) (l' :: ls')
  | bad {s : Option Str} {l l' : Str} {ls ls' : List Str} :
      (∀ x ∈ [l, l'], ¬ IgnoredLine x ∧ (∀ n, ¬ HeaderLine x n) ∧ ∀ n v, ¬ AssignLine x n v) → AlikeFrom s (l :: ls) (l' :: ls')

/-- Two files of which only the keys differ. -/
def AlikeFiles (s s' : Str) : Prop := ∃ ls ls', TextLines s ls ∧ TextLines s' ls' ∧ AlikeFrom none ls ls'

end Letmein.Spec
