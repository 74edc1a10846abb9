import Verif.Props.Joint
import Verif.Props.EndToEnd
import Verif.Props.ConfWrite

/-!
# Property C124: which resources of a configuration can be opened by whom

`/repo/letmein-conf/src/lib.rs:267-387,528-568` accepts a file whose resources nobody can open; `/repo/letmeind/src/protocol.rs:126-180` finds out when a client knocks.
-/

namespace Letmein.Props
open Letmein Prog Spec

/-- Client (with some key) and server, from some address, can complete a knock of this user for this resource. -/
def CanBeOpened (mac : MacFn) (conf : Config) (u : UserId) (r : ResourceId) : Prop :=
  ∃ peer key n J, JSteps n (Joint.init mac conf peer u r key) J ∧ BothSucceeded J

/-! ## Traces of the two sides of a joint run -/

/-- After these actions and answers the first program has become the second. -/
def Reach {α : Type} : Prog α → List Ev → Prog α → Prop
  | p, [], q => p = q
  | .act a k, e :: tr, q => ∃ x, e = ⟨a, x⟩ ∧ Reach (k x) tr q
  | .ret _, _ :: _, _ => False

theorem reach_snoc {α : Type} {a : Act} {k : a.Resp → Prog α} (x : a.Resp) :
    ∀ {p : Prog α} {tr : List Ev}, Reach p tr (.act a k) → Reach p (tr ++ [⟨a, x⟩]) (k x)
  | p, [], h => by
    simp only [Reach] at h
    subst h
    exact ⟨x, rfl, by simp only [Reach]⟩
  | .act _ _, e :: tr, h => by
    obtain ⟨y, rfl, h⟩ := h
    exact ⟨y, rfl, reach_snoc x h⟩
  | .ret _, _ :: _, h => h.elim

theorem reach_trace {α : Type} {v : R α} : ∀ {p : Prog α} {tr : List Ev}, Reach p tr (.ret v) → p.Trace tr (some v)
  | p, [], h => by
    simp only [Reach] at h
    subst h
    exact ⟨rfl, .inr rfl⟩
  | .act _ _, e :: tr, h => by
    obtain ⟨y, rfl, h⟩ := h
    exact ⟨y, rfl, reach_trace h⟩
  | .ret _, _ :: _, h => h.elim

/-- What both sides have done so far; what the server has received and what is in transit is what the client has sent. -/
structure JointTrace (J0 J : Joint) (trC trS : List Ev) : Prop where
  client : Reach J0.client trC J.client
  server : Reach J0.server trS J.server
  transit : sent trC = received trS ++ J.c2s

theorem joint_trace {J0 : Joint} (h0 : J0.c2s = []) {n : Nat} {J : Joint} (h : JSteps n J0 J) : ∃ trC trS, JointTrace J0 J trC trS := by
  induction h with
  | refl => exact ⟨[], [], by simp only [Reach], by simp only [Reach], by simp [sent, received, h0]⟩
  | step _ hs ih =>
    obtain ⟨trC, trS, hc, hsv, ht⟩ := ih h0
    cases hs with
    | cConnect => exact ⟨_, _, reach_snoc _ hc, hsv, by simpa [sent, sentMsg, List.filterMap_cons] using ht⟩
    | cRand salt => exact ⟨_, _, reach_snoc _ hc, hsv, by simpa [sent, sentMsg, List.filterMap_cons] using ht⟩
    | cSend => exact ⟨_, _, reach_snoc _ hc, hsv, by
        simp only [sent, List.filterMap_append, List.filterMap_cons, sentMsg, List.filterMap_nil] at ht ⊢
        rw [ht, List.append_assoc]⟩
    | cRecv => exact ⟨_, _, reach_snoc _ hc, hsv, by simpa [sent, sentMsg, List.filterMap_cons] using ht⟩
    | sRand8 => exact ⟨_, _, hc, reach_snoc _ hsv, by simpa [received, recvd, List.filterMap_cons] using ht⟩
    | sRand32 => exact ⟨_, _, hc, reach_snoc _ hsv, by simpa [received, recvd, List.filterMap_cons] using ht⟩
    | sSend => exact ⟨_, _, hc, reach_snoc _ hsv, by simpa [received, recvd, List.filterMap_cons] using ht⟩
    | sRecv => exact ⟨_, _, hc, reach_snoc _ hsv, by simpa [received, recvd, List.filterMap_cons] using ht⟩
    | sFwConnect => exact ⟨_, _, hc, reach_snoc _ hsv, by simpa [received, recvd, List.filterMap_cons] using ht⟩
    | sFwSend => exact ⟨_, _, hc, reach_snoc _ hsv, by simpa [received, recvd, List.filterMap_cons] using ht⟩
    | sFwRecv => exact ⟨_, _, hc, reach_snoc _ hsv, by simpa [received, recvd, List.filterMap_cons] using ht⟩

/-! ## C124 -/

/-- A user can open a resource exactly if letmeind has a key for them and grants it to them. -/
theorem canBeOpened_iff (mac : MacFn) (conf : Config) (hp : ∀ id res, conf.resource id = some res → res.tcp = true ∨ res.udp = true) (u : UserId)
    (r : ResourceId) : CanBeOpened mac conf u r ↔ ∃ key res, conf.key u = some key ∧ Granted conf u r res := by
  constructor
  · rintro ⟨peer, key, n, J, hs, hc, hsv, hz, _⟩
    obtain ⟨trC, trS, t1, t2, t3⟩ := joint_trace rfl hs
    rw [hc] at t1
    rw [hsv] at t2
    have t1 := reach_trace t1
    have t2 := reach_trace t2
    obtain ⟨knock, ch, resp, ci, hk, _, hresp, _, hsent, _⟩ := C13_success mac u r key _ t1
    obtain ⟨m, hm, hlast⟩ := (C09_success_iff mac conf peer _ _ t2).1 rfl
    obtain ⟨pre, hpre⟩ := List.getLast?_eq_some_iff.1 hlast
    obtain ⟨⟨req, reply, hsub, _⟩, _⟩ := C09_comein_after_ack mac conf peer _ _ t2 pre _ [] hpre m rfl hm
    obtain ⟨a, b, hab⟩ := List.append_of_mem (hsub.subset (List.mem_cons_self ..))
    rw [hab, List.append_assoc] at hpre
    obtain ⟨knock', _, _, _, key', res, hfull⟩ := C07_no_request_without_full_auth mac conf peer _ _ t2 a _ _ hpre rfl
    have hmem : knock' ∈ sent trC := by
      rw [t3]
      refine List.mem_append_left _ ?_
      rw [hpre, received, List.filterMap_append]
      refine List.mem_append_left _ ?_
      have : knock' ∈ received a := by rw [hfull.recvOnly]; simp
      exact this
    rw [hsent] at hmem
    simp only [List.mem_cons, List.not_mem_nil, or_false] at hmem
    have hids : knock'.user = u ∧ knock'.resource = r := by
      rcases hmem with rfl | rfl
      · exact ⟨hk.2.1, hk.2.2.1⟩
      · exact ⟨hresp.2.1, hresp.2.2.1⟩
    have h1 := hfull.knockOk.known
    have h2 := hfull.granted
    rw [hids.1] at h1 h2
    rw [hids.2] at h2
    exact ⟨key', res, h1, h2⟩
  · rintro ⟨key, res, hk, hg⟩
    obtain ⟨J, hJ, hb⟩ := C14_run_exists mac conf (.v4 (Arr.replicate 4 1)) u r key res hk hg (hp r res hg.configured)
    exact ⟨_, key, 17, J, hJ, hb⟩

/-- **C124** (exactly). A user can open a resource of a file that letmeind has loaded exactly if the file has a key for the user, and the resource, for everybody or for this user,
and its port is not the control port. -/
theorem C124_iff (mac : MacFn) {f64 : F64Secs} {order : IterOrder} (ho : IsOrder order) {path : Str} {file : FileContent} {d : Doc} (hd : FileDoc file d) {c : Config}
    (hl : (Config.new .Server).load f64 order path file = (.ok (), c)) (u : UserId) (r : ResourceId) :
    CanBeOpened mac c u r ↔ ∃ key res, DocKey d u key ∧ DocGrants d u r res := by
  obtain ⟨hc, _⟩ := C54_loaded_is_described ho hd hl
  have hnd := fileDoc_nodup hd
  rw [canBeOpened_iff mac c (fun id res h => by
    obtain ⟨_, _, _, _, _, _, _, _, _, hp⟩ := (hc.resources.resources id res).1 h
    exact protocols_some hp) u r]
  constructor
  · rintro ⟨key, res, h1, h2⟩
    exact ⟨key, res, (hc.keys.keys u key).1 h1, (docGrants_iff hnd hc).1 h2⟩
  · rintro ⟨key, res, h1, h2⟩
    exact ⟨key, res, (hc.keys.keys u key).2 h1, (docGrants_iff hnd hc).2 h2⟩

/-- **C124**. In a file that letmeind has loaded, everybody who has a key can open each resource which is for them and does not have the control port. Missing: the file may have
resources with the control port (`C124_negation_control`), and users of resources without a key (`C124_negation_nokey`). -/
theorem C124_usable_partial (mac : MacFn) {f64 : F64Secs} {order : IterOrder} (ho : IsOrder order) {path : Str} {file : FileContent} {d : Doc} (hd : FileDoc file d) {c : Config}
    (hl : (Config.new .Server).load f64 order path file = (.ok (), c)) (u : UserId) (key : Key) (hk : DocKey d u key) (r : ResourceId) (res : Resource)
    (hr : DocResource d r res) (hu : res.users = [] ∨ u ∈ res.users) (hp : ∀ cp, DocControlPort d cp → res.port ≠ cp.port) : CanBeOpened mac c u r :=
  (C124_iff mac ho hd hl u r).2 ⟨key, res, hk, ⟨hr, hu, hp⟩⟩

/-- The example file has two users for port 22, and a key for one of them: that one can open it. -/
example : (∃ d, FileDoc (.text exampleText) d ∧ ∃ key res, DocKey d ⟨0xA1⟩ key ∧ DocGrants d ⟨0xA1⟩ ⟨7⟩ res) ∧ CanBeOpened toyMac exampleLoaded ⟨0xA1⟩ ⟨7⟩ ∧
    ¬ CanBeOpened toyMac exampleLoaded ⟨2⟩ ⟨7⟩ := by
  have hp : ∀ id res, exampleLoaded.resource id = some res → res.tcp = true ∨ res.udp = true := by
    intro id res h
    have := assocGet_mem h
    simp only [exampleLoaded, List.mem_cons, Prod.mk.injEq, List.not_mem_nil, or_false] at this
    rcases this with ⟨_, rfl⟩ | ⟨_, rfl⟩ <;> decide
  have h1 : CanBeOpened toyMac exampleLoaded ⟨0xA1⟩ ⟨7⟩ :=
    (canBeOpened_iff toyMac exampleLoaded hp _ _).2 ⟨exampleKey, _, by decide, ⟨rfl, by decide, by decide⟩⟩
  refine ⟨?_, h1, fun h => ?_⟩
  · obtain ⟨d, hd⟩ := C54_server_needs_document rfl example_load
    exact ⟨d, hd, (C124_iff toyMac id_order hd example_load _ _).1 h1⟩
  · obtain ⟨key, _, hk, _⟩ := (canBeOpened_iff toyMac exampleLoaded hp _ _).1 h
    revert hk
    have : exampleLoaded.key ⟨2⟩ = none := by decide
    rw [this]
    simp

/-- A configuration whose only resource has the control port. -/
def controlResourceConf : Config :=
  { Config.new .Server with
    keys := [(⟨0xA423DDA7⟩, Arr.replicate 32 7)]
    resources := [(⟨0xBC5D8077⟩, { port := 5800, tcp := true, udp := false, users := [] })] }

/-- A configuration whose only resource is for a user without a key. -/
def noKeyConf : Config :=
  { Config.new .Server with
    keys := [(⟨0xA423DDA7⟩, Arr.replicate 32 7)]
    resources := [(⟨0xBC5D8077⟩, { port := 22, tcp := true, udp := false, users := [⟨0xA423DDA8⟩] })] }

theorem one_resource_valid (f64 : F64Secs) (c : Config) (u : UserId) (r : ResourceId) (res : Resource) (hb : ∃ k rs, c = { Config.new .Server with keys := k, resources := rs })
    (hk : c.keys = [(u, Arr.replicate 32 7)]) (hr : c.resources = [(r, res)]) (hp : res.tcp = true) : ValidConf f64 c := by
  obtain ⟨k, rs, rfl⟩ := hb
  simp only at hk hr
  subst hk hr
  refine ⟨.inl rfl, ?_, ?_, ?_, ?_, fun _ => ⟨rfl, ?_, by simp [Config.new], ?_, ?_, ?_⟩, fun h => by simp [Config.new] at h⟩
  · exact C93_seconds f64 (n := 5) (by omega)
  · intro u' key h
    simp only [Config.key, assocGet] at h
    split at h
    · injection h with h
      subst h
      exact ⟨⟨7, by simp [Arr.replicate], by decide⟩, ⟨7, by simp [Arr.replicate], by decide⟩⟩
    · cases h
  · intro id r' h
    simp only [Config.resource, assocGet] at h
    split at h
    · injection h with h
      subst h
      exact .inl hp
    · cases h
  · intro id id' r1 r2 h1 h2 _
    simp only [Config.resource, assocGet] at h1 h2
    split at h1
    · split at h2
      · rename_i a b; exact a.symm.trans b
      · cases h2
    · cases h1
  · exact ⟨by simp [Config.new], by simp [Config.new], by simp [Config.new]⟩
  · exact ⟨by simp [Config.new], by simp [Config.new], by simp [Config.new]⟩
  · exact ⟨by simp [Config.new], by simp [Config.new], by simp [Config.new]⟩
  · exact C93_seconds f64 (n := 600) (by omega)

/-- **C124** (negation of the full statement, control port). There is a file that letmeind loads without complaint although its resource, which is for everybody, has the control
port: nobody can open it. -/
theorem C124_negation_control (f64 : F64Secs) : ∃ text r res, ∀ order, IsOrder order → ∀ path, ∃ c, (Config.new .Server).load f64 order path (.text text) = (.ok (), c) ∧
    c.resource r = some res ∧ res.users = [] ∧ (∃ u key, c.key u = some key) ∧ ∀ mac u, ¬ CanBeOpened mac c u r := by
  obtain ⟨text, h⟩ := (C93_expressible f64 controlResourceConf (by decide) (by decide)).2
    (one_resource_valid f64 _ ⟨0xA423DDA7⟩ ⟨0xBC5D8077⟩ { port := 5800, tcp := true, udp := false, users := [] } ⟨_, _, rfl⟩ rfl rfl rfl)
  refine ⟨text, ⟨0xBC5D8077⟩, { port := 5800, tcp := true, udp := false, users := [] }, fun order ho path => ?_⟩
  obtain ⟨c, hl, hc⟩ := h order ho path
  refine ⟨c, hl, by rw [hc.resources]; decide, rfl, ⟨⟨0xA423DDA7⟩, Arr.replicate 32 7, by rw [hc.keys]; decide⟩, fun mac u hx => ?_⟩
  obtain ⟨_, res, _, hg⟩ := (canBeOpened_iff mac c (fun id res h => by
    rw [hc.resources, Config.resource, controlResourceConf] at h
    simp only [assocGet] at h
    split at h
    · injection h with h; subst h; exact .inl rfl
    · cases h) u _).1 hx
  have h1 := hg.configured
  have h2 := hg.notControl
  rw [hc.resources] at h1
  rw [hc.port] at h2
  have h3 : controlResourceConf.resource ⟨0xBC5D8077⟩ = some { port := 5800, tcp := true, udp := false, users := [] } := by decide
  rw [h3] at h1
  injection h1 with h1
  subst h1
  exact h2 (by decide)

/-- **C124** (negation of the full statement, users). There is a file that letmeind loads without complaint although its resource is for a user without a key only: nobody can
open it, with whatever key. -/
theorem C124_negation_nokey (f64 : F64Secs) : ∃ text r res u0, ∀ order, IsOrder order → ∀ path, ∃ c, (Config.new .Server).load f64 order path (.text text) = (.ok (), c) ∧
    c.resource r = some res ∧ u0 ∈ res.users ∧ res.port ≠ c.port.port ∧ ∀ mac u, ¬ CanBeOpened mac c u r := by
  obtain ⟨text, h⟩ := (C93_expressible f64 noKeyConf (by decide) (by decide)).2
    (one_resource_valid f64 _ ⟨0xA423DDA7⟩ ⟨0xBC5D8077⟩ { port := 22, tcp := true, udp := false, users := [⟨0xA423DDA8⟩] } ⟨_, _, rfl⟩ rfl rfl rfl)
  refine ⟨text, ⟨0xBC5D8077⟩, { port := 22, tcp := true, udp := false, users := [⟨0xA423DDA8⟩] }, ⟨0xA423DDA8⟩, fun order ho path => ?_⟩
  obtain ⟨c, hl, hc⟩ := h order ho path
  refine ⟨c, hl, by rw [hc.resources]; decide, by simp, by rw [hc.port]; decide, fun mac u hx => ?_⟩
  obtain ⟨key, res, hk, hg⟩ := (canBeOpened_iff mac c (fun id res h => by
    rw [hc.resources, Config.resource, noKeyConf] at h
    simp only [assocGet] at h
    split at h
    · injection h with h; subst h; exact .inl rfl
    · cases h) u _).1 hx
  have h1 := hg.configured
  have h2 := hg.allowed
  rw [hc.resources] at h1
  rw [hc.keys] at hk
  have h3 : noKeyConf.resource ⟨0xBC5D8077⟩ = some { port := 22, tcp := true, udp := false, users := [⟨0xA423DDA8⟩] } := by decide
  rw [h3] at h1
  injection h1 with h1
  subst h1
  simp only [List.cons_ne_nil, List.mem_cons, List.not_mem_nil, or_false, false_or] at h2
  subst h2
  have h4 : noKeyConf.key ⟨0xA423DDA8⟩ = none := by decide
  rw [h4] at hk
  cases hk

end Letmein.Props
