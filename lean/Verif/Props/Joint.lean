import Verif.Lemmas.Joint
import Verif.Props.Client

/-!
# Property C14: an honest client and an honest server get to Come-In
-/

namespace Letmein.Props

open Letmein Prog Spec

/-- Both sides have ended with success, nothing is left in transit. -/
structure BothSucceeded (J : Joint) : Prop where
  client : J.client = .ret (.ok ())
  server : J.server = .ret (.ok ())
  nothingLeft : J.c2s = [] ∧ J.s2c = []

/-- **C14**. The user's key is the same on both sides, the resource is granted to the user and has a protocol: whatever
the scheduling, the random values and the MAC function, a run has at most 17 steps, a shorter one can always be continued
(no deadlock), and a run that cannot be continued has ended with success on both sides and exactly one
request to letmeinfwd, for the peer's address and the resource's port and protocols. -/
theorem C14_every_run_succeeds (mac : MacFn) (conf : Config) (peer : IpAddr) (u : UserId) (r : ResourceId) (key : Key)
    (res : Resource) (hk : conf.key u = some key) (hg : Granted conf u r res) (hp : res.tcp = true ∨ res.udp = true)
    (n : Nat) (J : Joint) (hs : JSteps n (Joint.init mac conf peer u r key) J) :
    n ≤ 17 ∧ ((∃ J', JStep J J') ∨ (n = 17 ∧ BothSucceeded J ∧
      ∃ pt, opensTcp pt = res.tcp ∧ opensUdp pt = res.udp ∧ J.reqs = [FwMessage.newOpen peer pt res.port])) := by
  obtain ⟨pt, hpt⟩ : ∃ pt, res.portType = .ok pt := by
    unfold Resource.portType
    cases h1 : res.tcp <;> cases h2 : res.udp <;> simp_all
  have hu : res.containsUser u = true := by
    unfold Resource.containsUser
    rcases hg.allowed with h | h
    · simp [h]
    · simp [h]
  have h0 : Phase mac peer u r key res pt 0 (Joint.init mac conf peer u r key) :=
    ⟨client_CP0 .., server_SP0 mac conf peer u r key res pt hk hg.configured hu hg.notControl hpt, rfl, rfl, rfl⟩
  have hn := phase_steps mac peer u r key res pt h0 hs
  have hle := phase_le mac peer u r key res pt hn
  refine ⟨hle, ?_⟩
  by_cases h17 : n = 17
  · subst h17
    obtain ⟨h1, h2, h3, h4, h5⟩ := hn
    obtain ⟨p1, p2⟩ := portType_spec hpt
    exact .inr ⟨rfl, ⟨h1, h2, h3, h4⟩, pt, p1, p2, h5⟩
  · exact .inl (phase_progress mac peer u r key res pt hn (by omega) ⟨goodSalt, by decide +kernel⟩
      ⟨goodNonce, by decide +kernel⟩ ⟨FwMessage.newAck, rfl⟩)

/-- **C14** (existence). There is a complete run. -/
theorem C14_run_exists (mac : MacFn) (conf : Config) (peer : IpAddr) (u : UserId) (r : ResourceId) (key : Key)
    (res : Resource) (hk : conf.key u = some key) (hg : Granted conf u r res) (hp : res.tcp = true ∨ res.udp = true) :
    ∃ J, JSteps 17 (Joint.init mac conf peer u r key) J ∧ BothSucceeded J := by
  have step : ∀ n, n ≤ 17 → ∃ J, JSteps n (Joint.init mac conf peer u r key) J := by
    intro n
    induction n with
    | zero => exact fun _ => ⟨_, .refl _⟩
    | succ n ih =>
      intro hn
      obtain ⟨J, hJ⟩ := ih (by omega)
      rcases (C14_every_run_succeeds mac conf peer u r key res hk hg hp n J hJ).2 with ⟨J', h'⟩ | ⟨h, _⟩
      · exact ⟨J', .step hJ h'⟩
      · omega
  obtain ⟨J, hJ⟩ := step 17 (by omega)
  refine ⟨J, hJ, ?_⟩
  rcases (C14_every_run_succeeds mac conf peer u r key res hk hg hp 17 J hJ).2 with ⟨J', h'⟩ | ⟨_, h, _⟩
  · have := (C14_every_run_succeeds mac conf peer u r key res hk hg hp 18 J' (.step hJ h')).1
    omega
  · exact h

/-- The hypotheses hold for the example configuration. -/
example : ∃ res, exampleConf.key ⟨0xA423DDA7⟩ = some (Arr.replicate 32 7) ∧
    Granted exampleConf ⟨0xA423DDA7⟩ ⟨0xBC5D8077⟩ res ∧ (res.tcp = true ∨ res.udp = true) :=
  ⟨_, by decide +kernel, ⟨rfl, by decide +kernel, by decide +kernel⟩, by decide +kernel⟩

end Letmein.Props
