import Verif.Spec.Session

/-!
# Specification vocabulary: what a key is used for
-/

namespace Letmein.Spec

open Letmein Prog

/-- Two keys (each with its way of computing tags) give the same tag for every text; or there is no key on either side. -/
def TagsAlike (mac mac' : MacFn) : Option Key → Option Key → Prop
  | none, none => True
  | some k, some k' => ∀ text, mac k text = mac' k' text
  | _, _ => False

/-- Two entries for a resource say the same to this user: the same port and protocols, and both let the user in or both do not. -/
def AlikeFor (u : UserId) : Option Resource → Option Resource → Prop
  | none, none => True
  | some a, some b => a.port = b.port ∧ a.tcp = b.tcp ∧ a.udp = b.udp ∧ ((a.users = [] ∨ u ∈ a.users) ↔ (b.users = [] ∨ u ∈ b.users))
  | _, _ => False

/-- Two server configurations agree on what concerns a knock of this user for this resource. -/
structure AgreeOn (mac : MacFn) (conf : Config) (mac' : MacFn) (conf' : Config) (u : UserId) (r : ResourceId) : Prop where
  tags : TagsAlike mac mac' (conf.key u) (conf'.key u)
  resource : AlikeFor u (conf.resource r) (conf'.resource r)
  control : conf.port.port = conf'.port.port

/-- Two configurations agree in everything but the keys. -/
def SameButKeys (c c' : Config) : Prop := ∃ ks, c' = { c with keys := ks }

end Letmein.Spec
