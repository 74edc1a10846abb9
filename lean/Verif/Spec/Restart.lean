import Verif.Props.EndToEnd

/-!
# Specification vocabulary: two configuration files, before and after an edit
-/

namespace Letmein.Spec

open Letmein

/-- A resource of the file has the port, and the port isn't the file's control port. -/
def Knockable (d : Doc) (port : UInt16) : Prop :=
  (∃ r res, DocResource d r res ∧ res.port = port) ∧ ∀ cp, DocControlPort d cp → port ≠ cp.port

/-- Two files that differ at most in what doesn't concern the firewall: they have the same settings in the section `NFTABLES`, the same setting of the control port,
and resources with the same ports. -/
structure SameForFirewall (a b : Doc) : Prop where
  nftables : ∀ o v, Setting a "NFTABLES".toList o v ↔ Setting b "NFTABLES".toList o v
  port : ∀ v, Setting a "GENERAL".toList "port".toList v ↔ Setting b "GENERAL".toList "port".toList v
  resources : ∀ p, (∃ r res, DocResource a r res ∧ res.port = p) ↔ ∃ r res, DocResource b r res ∧ res.port = p

/-- An address that can be the source of a packet from one host. -/
def OrdinaryAddr (a : IpAddr) : Prop :=
  a ≠ .v4 (Arr.replicate 4 0) ∧ a ≠ .v4 (Arr.replicate 4 0xFF) ∧ a ≠ .v6 (Arr.replicate 16 0) ∧ a ≠ .v6 (Arr.replicate 16 0xFF)

/-- The operations of letmeinfwd that do not come from the knock. -/
def othersOps (evs : List WEv) : List FwdOp := evs.filterMap (fun | .other op => some op | _ => none)

end Letmein.Spec
