import Verif.Model.DefaultPath
import Verif.Spec.Ip
import Verif.Props.EndToEnd

/-!
# C82: where the configuration is read from
-/

namespace Letmein.Spec
open Letmein

/-- The components of a path: what is between the separators, empty parts left out. -/
def components (p : Str) : List Str := (pieces '/' p).filter (· ≠ [])

/-- The path starts at the root directory. -/
def Absolute (p : Str) : Prop := ∃ s, p = '/' :: s

/-- The file name of a program's configuration. -/
def confFile : ConfigVariant → Str
  | .Client => "letmein.conf".toList
  | .Server => "letmeind.conf".toList

end Letmein.Spec

namespace Letmein.Props
open Letmein Prog Spec

theorem pieces_append_sep (c : Char) (a b : Str) : pieces c (a ++ c :: b) = pieces c a ++ pieces c b := by
  induction a with
  | nil => simp [pieces]
  | cons x a ih =>
    rw [List.cons_append, pieces, pieces]
    by_cases h : x = c
    · rw [if_pos h, if_pos h, ih]; rfl
    · rw [if_neg h, if_neg h, ih]
      cases hp : pieces c a with
      | nil =>
        exfalso
        cases a with
        | nil => cases hp
        | cons y a =>
          rw [pieces] at hp
          split at hp
          · cases hp
          · split at hp <;> cases hp
      | cons p ps => rfl

theorem components_sep (a b : Str) : components (a ++ '/' :: b) = components a ++ components b := by
  unfold components
  rw [pieces_append_sep, List.filter_append]

/-- Pushing a relative path appends its components. -/
theorem components_push {a b : Str} (hb : b.head? ≠ some '/') : components (pathPush a b) = components a ++ components b := by
  unfold pathPush
  rw [if_neg hb]
  by_cases h : a = [] ∨ a.getLast? = some '/'
  · rw [if_pos h]
    rcases h with rfl | h
    · rfl
    · obtain ⟨a', rfl⟩ := List.getLast?_eq_some_iff.1 h
      rw [List.append_assoc]
      show components (a' ++ '/' :: b) = _
      rw [components_sep, components_sep]
      show _ = components a' ++ components [] ++ components b
      simp [components, pieces]
  · rw [if_neg h, components_sep]

/-- Pushing a relative path on a non-empty one does not change where it starts. -/
theorem absolute_push {a b : Str} (hb : b.head? ≠ some '/') : Absolute (pathPush a b) ↔ Absolute a := by
  have hnb : ¬ Absolute b := by rintro ⟨s, rfl⟩; exact hb rfl
  unfold pathPush
  rw [if_neg hb]
  cases a with
  | nil =>
    rw [if_pos (.inl rfl)]
    exact ⟨fun h => absurd h hnb, fun ⟨s, h⟩ => by cases h⟩
  | cons x a =>
    have : ∀ t, Absolute ((x :: a) ++ t) ↔ Absolute (x :: a) := by
      intro t
      constructor
      · rintro ⟨s, h⟩; rw [List.cons_append] at h; injection h with h _; exact ⟨a, by rw [h]⟩
      · rintro ⟨s, h⟩; injection h with h _; exact ⟨a ++ t, by rw [h]; rfl⟩
    split
    · exact this b
    · exact this ('/' :: b)

theorem pathPush_nil (p : Str) : pathPush [] p = p := by
  unfold pathPush
  split <;> simp

/-- **C82**. Without the option `--config` a program reads `etc/letmein.conf` (client) or `etc/letmeind.conf` (daemons) below the prefix set when it was
built, by default the root directory. The path is absolute exactly if the prefix is. -/
theorem C82_default_path (pre : Option Str) (v : ConfigVariant) :
    components (getConfigPath pre v none) = components (pre.getD []) ++ ["etc".toList, confFile v] ∧
    (Absolute (getConfigPath pre v none) ↔ pre = none ∨ ∃ p, pre = some p ∧ Absolute p) := by
  have hc : CLIENT_CONF_PATH.head? ≠ some '/' := by decide
  have hs : SERVER_CONF_PATH.head? ≠ some '/' := by decide
  have hcc : components CLIENT_CONF_PATH = ["etc".toList, "letmein.conf".toList] := by decide
  have hcs : components SERVER_CONF_PATH = ["etc".toList, "letmeind.conf".toList] := by decide
  have hpre : components (pre.getD "/".toList) = components (pre.getD []) := by cases pre <;> rfl
  have habs : Absolute (pre.getD "/".toList) ↔ pre = none ∨ ∃ p, pre = some p ∧ Absolute p := by
    cases pre with
    | none => exact ⟨fun _ => .inl rfl, fun _ => ⟨[], rfl⟩⟩
    | some p =>
      constructor
      · exact fun h => .inr ⟨p, rfl, h⟩
      · rintro (h | ⟨_, h, h2⟩)
        · cases h
        · injection h with h; subst h; exact h2
  unfold getConfigPath getDefaultPath
  cases v with
  | Client =>
    simp only [pathPush_nil]
    rw [components_push hc, absolute_push hc, hcc, hpre]
    exact ⟨rfl, habs⟩
  | Server =>
    simp only [pathPush_nil]
    rw [components_push hs, absolute_push hs, hcs, hpre]
    exact ⟨rfl, habs⟩

example : getConfigPath none .Server none = "/etc/letmeind.conf".toList ∧ getConfigPath (some "/opt/letmein".toList) .Client none = "/opt/letmein/etc/letmein.conf".toList := by
  decide

/-- C82: client and daemons never have the same default, however they were built. -/
theorem C82_client_has_its_own (pre pre' : Option Str) : getConfigPath pre .Client none ≠ getConfigPath pre' .Server none := by
  intro h
  have h1 := (C82_default_path pre .Client).1
  have h2 := (C82_default_path pre' .Server).1
  rw [h, h2] at h1
  have := congrArg List.getLast? h1
  simp only [List.getLast?_append, List.getLast?_cons_cons, List.getLast?_singleton, Option.some_or] at this
  exact absurd this (by decide)

/-- C82: built together and started without `--config`, or with the same one, both daemons read the same file (if it does not change in between), so letmeinfwd
has a resource for whatever letmeind may ask it for, and never the control port's. -/
theorem C82_daemons_share (pre : Option Str) (config : Option Str) (disk : Str → FileContent)
    {oF : FwdOpts} {wF : FwdWorld} (hoF : IsOrder wF.order) {kF : Kernel} {fwd : FwdProc} (hF : fwdMain oF wF = (kF, .ok fwd))
    {oL : LmOpts} {wL : LmWorld} (hoL : IsOrder wL.order) {lm : LmProc} (hL : lmMain oL wL = .ok lm)
    (hcF : oF.config = getConfigPath pre .Server config) (hcL : oL.config = getConfigPath pre .Server config)
    (hfF : wF.file = disk oF.config) (hfL : wL.file = disk oL.config)
    {u : UserId} {r : ResourceId} {res : Resource} (hg : Granted lm.conf u r res) :
    (∃ e ∈ fwd.setup.conf.resources, e.2.port = res.port) ∧ res.port ≠ fwd.setup.conf.port.port := by
  have hfile : wF.file = wL.file := by rw [hfF, hfL, hcF, hcL]
  have hd : ∃ d, FileDoc wL.file d := by
    have h := hL
    unfold lmMain at h
    simp only [R.bind_eq_ok] at h
    obtain ⟨_, _, _, hload, _⟩ := h
    have hload' : (Config.new .Server).load wL.f64 wL.order oL.config wL.file = (.ok (), ((Config.new .Server).load wL.f64 wL.order oL.config wL.file).2) :=
      Prod.ext hload rfl
    exact C54_server_needs_document rfl hload'
  obtain ⟨d, hd⟩ := hd
  exact C80_one_file hoF hF hoL hL hfile hd hg

example : (∃ k p, fwdMain e2eFwdOpts e2eFwdWorld = (k, .ok p)) ∧ (∃ q, lmMain e2eLmOpts e2eLmWorld = .ok q ∧
      Granted q.conf ⟨0xA423DDA7⟩ ⟨0xBC5D8077⟩ { port := 22, tcp := true, udp := false, users := [] }) ∧
    e2eFwdOpts.config = getConfigPath none .Server (some "letmeind.conf".toList) ∧ e2eLmOpts.config = getConfigPath none .Server (some "letmeind.conf".toList) ∧
    e2eFwdWorld.file = e2eLmWorld.file := by
  obtain ⟨k, p, hp, _⟩ := e2e_fwd
  obtain ⟨q, hq, h⟩ := e2e_lm
  refine ⟨⟨k, p, hp⟩, ⟨q, hq, ?_⟩, rfl, rfl, rfl⟩
  exact ⟨h.2.2.1, .inl rfl, by rw [h.2.2.2]; decide⟩

end Letmein.Props
