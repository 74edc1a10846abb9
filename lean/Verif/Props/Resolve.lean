import Verif.Props.Knock

/-!
# Property C98: when a host name is found

`/repo/letmein/src/resolver.rs:107-193`. The expectation is that a name is found whenever one of the name servers that may be asked knows an
address of the wanted family for it. The code returns from the first lookup that succeeds, also if its answer has no such address
(`:127-137`, `:140-143`), so this is false.
-/

namespace Letmein

namespace Spec

/-- The answer to this lookup has an address of the wanted family. -/
def Knows (dns : Dns) (m : ResMode) (q : DnsQuery) : Prop := ∃ l, dns q = some l ∧ ∃ r ∈ l, ∃ a, RecordAddr m r a

/-- Someone who may be asked knows the name. -/
def SomeoneKnows (dns : Dns) (cfg : ResConf) (host : Str) : Prop := ∃ q, MayAsk cfg host q ∧ Knows dns cfg.mode q

/-- The first one to answer knows the name. -/
def FirstKnows (dns : Dns) (cfg : ResConf) (host : Str) : Prop :=
  ∃ q, MayAsk cfg host q ∧ Knows dns cfg.mode q ∧ ∀ q', MayAsk cfg host q' → Before q' q → dns q' = none

end Spec

namespace Props

open Letmein Prog Spec

/-- A list with an address of the family has a first one. -/
theorem firstAddr_exists {m : ResMode} : ∀ {l : List RData}, (∃ r ∈ l, ∃ a, RecordAddr m r a) → ∃ a, FirstAddr m l a
  | [], h => by simp at h
  | r :: l, h => by
    by_cases hr : ∃ a, RecordAddr m r a
    · obtain ⟨a, ha⟩ := hr
      exact ⟨a, [], r, l, rfl, ha, by simp⟩
    · obtain ⟨r', hr', a', ha'⟩ := h
      rcases List.mem_cons.1 hr' with rfl | hr'
      · exact absurd ⟨a', ha'⟩ hr
      · obtain ⟨a, x, r2, y, he, h1, h2⟩ := firstAddr_exists ⟨r', hr', a', ha'⟩
        refine ⟨a, r :: x, r2, y, by rw [he]; rfl, h1, ?_⟩
        intro r3 h3
        rcases List.mem_cons.1 h3 with rfl | h3
        · exact hr
        · exact h2 r3 h3

/-- The order of the lookups is total on those that may be made. -/
theorem before_total {cfg : ResConf} {host : Str} {q q' : DnsQuery} (h : MayAsk cfg host q) (h' : MayAsk cfg host q') :
    q = q' ∨ Before q q' ∨ Before q' q := by
  obtain ⟨s, t, hh, r⟩ := q
  obtain ⟨s', t', hh', r'⟩ := q'
  obtain ⟨-, -, h3, h4⟩ := h
  obtain ⟨-, -, h3', h4'⟩ := h'
  simp only at h3 h3' h4 h4'
  have hr : r = r' := by
    generalize cfg.mode = m at h4 h4'
    cases h4 <;> cases h4' <;> rfl
  subst h3; subst h3'; subst hr
  cases s <;> cases t <;> cases s' <;> cases t' <;> simp [Before, transportRank, serviceRank]

/-- Nothing comes before itself, and not both orders. -/
theorem before_asymm {q q' : DnsQuery} (h : Before q q') : ¬ Before q' q := by
  obtain ⟨s, t, hh, r⟩ := q
  obtain ⟨s', t', hh', r'⟩ := q'
  cases s <;> cases t <;> cases s' <;> cases t' <;> simp_all [Before, transportRank, serviceRank]

/-- C98: a name is found exactly if the first one to answer knows it. -/
theorem C98_found_iff {parseIp : ParseIp} {host : Str} (h : parseIp host = none) (dns : Dns) (cfg : ResConf) :
    (∃ a, (resolve parseIp dns host cfg).2 = .ok a) ↔ FirstKnows dns cfg host := by
  obtain ⟨hall, hpw, hcase⟩ := C44_queries h dns cfg
  constructor
  · rintro ⟨a, ha⟩
    rcases hcase with ⟨he, -, -⟩ | ⟨pre, q, l, hq, hpre, hl, hord, hres, -⟩
    · rw [he] at ha; cases ha
    · obtain ⟨x, r, y, hxy, hr, -⟩ := (hres a).1 ha
      refine ⟨q, hall q (by rw [hq]; simp), ⟨l, hl, r, by rw [hxy]; simp, a, hr⟩, ?_⟩
      intro q' hq' hb
      rcases hord q' hq' with h1 | h1
      · rcases List.mem_append.1 h1 with h1 | h1
        · exact hpre q' h1
        · rw [List.mem_singleton] at h1; subst h1
          exact absurd hb (before_asymm hb)
      · exact absurd hb (before_asymm h1)
  · rintro ⟨q, hq, ⟨l, hl, hk⟩, hfirst⟩
    rcases hcase with ⟨-, h1, h2⟩ | ⟨pre, q2, l2, hq2, hpre, hl2, hord, hres, -⟩
    · rw [h2 q (h1 q hq)] at hl; cases hl
    · have hm2 := hall q2 (by rw [hq2]; simp)
      have hqq : q = q2 := by
        rcases before_total hq hm2 with h1 | h1 | h1
        · exact h1
        · exfalso
          rcases hord q hq with h2 | h2
          · rcases List.mem_append.1 h2 with h2 | h2
            · rw [hpre q h2] at hl; cases hl
            · rw [List.mem_singleton] at h2; subst h2; exact before_asymm h1 h1
          · exact before_asymm h1 h2
        · rw [hfirst q2 hm2 h1] at hl2; cases hl2
      subst hqq
      rw [hl] at hl2; cases hl2
      obtain ⟨a, ha⟩ := firstAddr_exists hk
      exact ⟨a, (hres a).2 ha⟩

/-- C98, what holds of the full statement `SomeoneKnows dns cfg host → ∃ a, (resolve parseIp dns host cfg).2 = .ok a`: it does if no
name server answers without an address of the family, as when the lookup of a name without such records is an error. Missing: answers with
other records only (for instance an alias that leads nowhere) are not followed by further lookups. -/
theorem C98_known_found_partial {parseIp : ParseIp} {host : Str} (h : parseIp host = none) (dns : Dns) (cfg : ResConf)
    (hd : ∀ q, MayAsk cfg host q → dns q ≠ none → Knows dns cfg.mode q) (hk : SomeoneKnows dns cfg host) :
    ∃ a, (resolve parseIp dns host cfg).2 = .ok a := by
  obtain ⟨-, -, hcase⟩ := C44_queries h dns cfg
  obtain ⟨hall, -, -⟩ := C44_queries h dns cfg
  obtain ⟨q, hq, l, hl, -⟩ := hk
  rcases hcase with ⟨-, h1, h2⟩ | ⟨pre, q2, l2, hq2, -, hl2, -, hres, -⟩
  · rw [h2 q (h1 q hq)] at hl; cases hl
  · obtain ⟨l3, hl3, hr⟩ := hd q2 (hall q2 (by rw [hq2]; simp)) (by rw [hl2]; simp)
    rw [hl2] at hl3; cases hl3
    obtain ⟨a, ha⟩ := firstAddr_exists hr
    exact ⟨a, (hres a).2 ha⟩

/-- C98: conversely, nothing is found that nobody knows. -/
theorem C98_not_invented {parseIp : ParseIp} {host : Str} (h : parseIp host = none) (dns : Dns) (cfg : ResConf) {a : IpAddr}
    (ha : (resolve parseIp dns host cfg).2 = .ok a) : ∃ q l, MayAsk cfg host q ∧ dns q = some l ∧ ∃ r ∈ l, RecordAddr cfg.mode r a := by
  obtain ⟨hall, -, hcase⟩ := C44_queries h dns cfg
  rcases hcase with ⟨he, -, -⟩ | ⟨pre, q, l, hq, -, hl, -, hres, -⟩
  · rw [he] at ha; cases ha
  · obtain ⟨x, r, y, hxy, hr, -⟩ := (hres a).1 ha
    exact ⟨q, l, hall q (by rw [hq]; simp), hl, r, by rw [hxy]; simp, hr⟩

/-- The system's resolver answers with an alias only; every other name server would know the address. -/
def aliasDns : Dns := fun q => if q.service = .system then some [.other] else some [.other, .A ⟨[192, 0, 2, 7], rfl⟩]

/-- All name servers may be asked, as by default. -/
def defaultResConf : ResConf := ⟨.Ipv4, ⟨true, true, true, true⟩, ⟨true, true, true⟩⟩

/-- C98 is false as it stands: with the default options, one answer without an address hides nine others. -/
theorem C98_negation : ∃ (parseIp : ParseIp) (dns : Dns) (cfg : ResConf) (host : Str), parseIp host = none ∧ SomeoneKnows dns cfg host ∧
    (resolve parseIp dns host cfg).2 = .err := by
  refine ⟨fun _ => none, aliasDns, defaultResConf, "h".toList, rfl,
    ⟨⟨.quad9, .tls, "h".toList, .A⟩, ?_, [.other, .A ⟨[192, 0, 2, 7], rfl⟩], by decide, .A ⟨[192, 0, 2, 7], rfl⟩, by decide, .v4 ⟨[192, 0, 2, 7], rfl⟩, ?_⟩, by decide⟩
  · exact ⟨rfl, by simp [TransportEnabled, defaultResConf], rfl, RecordFor.a⟩
  · exact RecordAddr.a _

/-- Without the system's resolver the name is found; the hypotheses of the theorems are met. -/
example : (∃ a, (resolve (fun _ => none) aliasDns "h".toList { defaultResConf with srv := ⟨false, true, true, true⟩ }).2 = .ok a) ∧
    FirstKnows aliasDns { defaultResConf with srv := ⟨false, true, true, true⟩ } "h".toList := by
  have : ∃ a, (resolve (fun _ => none) aliasDns "h".toList { defaultResConf with srv := ⟨false, true, true, true⟩ }).2 = .ok a :=
    ⟨.v4 ⟨[192, 0, 2, 7], rfl⟩, by decide⟩
  exact ⟨this, (C98_found_iff rfl _ _).1 this⟩

end Props

end Letmein
