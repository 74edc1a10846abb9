import Verif.Spec.Knock
import Verif.Lemmas.ConfItems

/-!
# Lemmas about name resolution and the knock command
-/

namespace Letmein

open Spec

theorem firstAddr_cons_hit {m : ResMode} {r : RData} {l : List RData} {a : IpAddr} (h : RecordAddr m r a) (b : IpAddr) :
    FirstAddr m (r :: l) b ↔ b = a := by
  constructor
  · rintro ⟨x, r', y, e, h1, h2⟩
    cases x with
    | nil =>
      injection e with e1 e2
      subst e1
      cases h <;> cases h1 <;> rfl
    | cons z x =>
      injection e with e1 e2
      subst e1
      exact absurd ⟨a, h⟩ (h2 r (by simp))
  · rintro rfl
    exact ⟨[], r, l, rfl, h, by simp⟩

theorem firstAddr_cons_miss {m : ResMode} {r : RData} {l : List RData} (h : ¬ ∃ a, RecordAddr m r a) (b : IpAddr) :
    FirstAddr m (r :: l) b ↔ FirstAddr m l b := by
  constructor
  · rintro ⟨x, r', y, e, h1, h2⟩
    cases x with
    | nil =>
      injection e with e1 e2
      subst e1
      exact absurd ⟨b, h1⟩ h
    | cons z x =>
      injection e with e1 e2
      exact ⟨x, r', y, e2, h1, fun r'' hr => h2 r'' (by simp [hr])⟩
  · rintro ⟨x, r', y, e, h1, h2⟩
    refine ⟨r :: x, r', y, by rw [e]; rfl, h1, ?_⟩
    intro r'' hr
    rcases List.mem_cons.1 hr with rfl | hr
    · exact h
    · exact h2 r'' hr

theorem getFirstResult_iff {m : ResMode} {l : List RData} (a : IpAddr) : getFirstResult m l = .ok a ↔ FirstAddr m l a := by
  induction l with
  | nil =>
    simp only [getFirstResult, reduceCtorEq, false_iff]
    rintro ⟨x, r, y, e, -⟩
    cases x <;> cases e
  | cons r l ih =>
    have miss : (¬ ∃ a, RecordAddr m r a) → (getFirstResult m l = .ok a ↔ FirstAddr m (r :: l) a) :=
      fun h => ih.trans (firstAddr_cons_miss h a).symm
    cases m with
    | Ipv6 =>
      cases r with
      | AAAA x =>
        rw [firstAddr_cons_hit (.aaaa x)]
        simp only [getFirstResult, R.ok.injEq]
        exact eq_comm
      | A x => exact miss (by rintro ⟨_, h⟩; cases h)
      | other => exact miss (by rintro ⟨_, h⟩; cases h)
    | Ipv4 =>
      cases r with
      | A x =>
        rw [firstAddr_cons_hit (.a x)]
        simp only [getFirstResult, R.ok.injEq]
        exact eq_comm
      | AAAA x => exact miss (by rintro ⟨_, h⟩; cases h)
      | other => exact miss (by rintro ⟨_, h⟩; cases h)

theorem getFirstResult_not_panic {m : ResMode} {l : List RData} : getFirstResult m l ≠ .panic := by
  induction l with
  | nil => simp [getFirstResult]
  | cons r l ih => cases m <;> cases r <;> simp [getFirstResult, ih]

theorem firstAddr_family {m : ResMode} {l : List RData} {a : IpAddr} (h : FirstAddr m l a) : InFamily m a := by
  obtain ⟨x, r, y, -, h1, -⟩ := h
  cases h1
  · exact .v4 _
  · exact .v6 _

/-- A sequence of conditional lookups. -/
def askAll (dns : Dns) (m : ResMode) : List (Bool × DnsQuery) → List DnsQuery × R IpAddr
  | [] => ([], .err)
  | (e, q) :: rest => lookupAndReturn dns m e q (askAll dns m rest)

/-- The outcome of a sequence of lookups. -/
theorem askAll_spec (dns : Dns) (m : ResMode) (cands : List (Bool × DnsQuery)) :
    ((askAll dns m cands).1 = (cands.filter (·.1)).map (·.2) ∧ (askAll dns m cands).2 = .err ∧ ∀ q ∈ (askAll dns m cands).1, dns q = none) ∨
      ∃ pre q post l, (cands.filter (·.1)).map (·.2) = pre ++ q :: post ∧ (askAll dns m cands).1 = pre ++ [q] ∧
        (∀ q' ∈ pre, dns q' = none) ∧ dns q = some l ∧ (askAll dns m cands).2 = getFirstResult m l := by
  induction cands with
  | nil => left; simp [askAll]
  | cons c cands ih =>
    obtain ⟨e, q⟩ := c
    cases e with
    | false =>
      simpa [askAll, lookupAndReturn] using ih
    | true =>
      simp only [askAll, lookupAndReturn, if_true, List.filter_cons, List.map_cons]
      cases hq : dns q with
      | some l =>
        right
        exact ⟨[], q, _, l, rfl, rfl, by simp, hq, rfl⟩
      | none =>
        simp only
        rcases ih with ⟨h1, h2, h3⟩ | ⟨pre, q', post, l, h1, h2, h3, h4, h5⟩
        · left
          refine ⟨by rw [h1], h2, ?_⟩
          intro q' hq'
          rcases List.mem_cons.1 hq' with rfl | hq'
          · exact hq
          · exact h3 q' hq'
        · right
          refine ⟨q :: pre, q', post, l, by rw [h1]; rfl, by rw [h2]; rfl, ?_, h4, h5⟩
          intro q'' hq''
          rcases List.mem_cons.1 hq'' with rfl | hq''
          · exact hq
          · exact h3 q'' hq''

/-- The candidates of `resolve`. -/
def candidates (host : Str) (cfg : ResConf) : List (Bool × DnsQuery) :=
  [(cfg.srv.system, ⟨.system, .system, host, getRecordType cfg.mode⟩),
    (cfg.crypt.tls && cfg.srv.quad9, ⟨.quad9, .tls, host, getRecordType cfg.mode⟩),
    (cfg.crypt.tls && cfg.srv.google, ⟨.google, .tls, host, getRecordType cfg.mode⟩),
    (cfg.crypt.tls && cfg.srv.cloudflare, ⟨.cloudflare, .tls, host, getRecordType cfg.mode⟩),
    (cfg.crypt.https && cfg.srv.quad9, ⟨.quad9, .https, host, getRecordType cfg.mode⟩),
    (cfg.crypt.https && cfg.srv.google, ⟨.google, .https, host, getRecordType cfg.mode⟩),
    (cfg.crypt.https && cfg.srv.cloudflare, ⟨.cloudflare, .https, host, getRecordType cfg.mode⟩),
    (cfg.crypt.unencrypted && cfg.srv.quad9, ⟨.quad9, .plain, host, getRecordType cfg.mode⟩),
    (cfg.crypt.unencrypted && cfg.srv.google, ⟨.google, .plain, host, getRecordType cfg.mode⟩),
    (cfg.crypt.unencrypted && cfg.srv.cloudflare, ⟨.cloudflare, .plain, host, getRecordType cfg.mode⟩)]

theorem resolve_eq {parseIp : ParseIp} {dns : Dns} {host : Str} {cfg : ResConf} (h : parseIp host = none) :
    resolve parseIp dns host cfg = askAll dns cfg.mode (candidates host cfg) := by
  unfold resolve
  rw [h]
  rfl

theorem recordFor_iff {m : ResMode} {r : RecordType} : RecordFor m r ↔ r = getRecordType m := by
  constructor
  · intro h; cases h <;> rfl
  · rintro rfl; cases m
    · exact .aaaa
    · exact .a

theorem candidates_sorted (host : Str) (cfg : ResConf) :
    (((candidates host cfg).filter (·.1)).map (·.2)).Pairwise Before := by
  have h : ((candidates host cfg).map (·.2)).Pairwise Before := by
    simp [candidates, Before, transportRank, serviceRank]
  exact h.sublist (List.filter_sublist.map _)

theorem mem_candidates (host : Str) (cfg : ResConf) (q : DnsQuery) :
    q ∈ ((candidates host cfg).filter (·.1)).map (·.2) ↔ MayAsk cfg host q := by
  obtain ⟨s, t, h, r⟩ := q
  simp only [List.mem_map, List.mem_filter, MayAsk, recordFor_iff]
  constructor
  · rintro ⟨⟨e, q⟩, ⟨h1, h2⟩, h3⟩
    simp only at h2 h3
    subst h2 h3
    simp only [candidates, List.mem_cons, Prod.mk.injEq, List.not_mem_nil, or_false, DnsQuery.mk.injEq] at h1
    rcases h1 with h1 | h1 | h1 | h1 | h1 | h1 | h1 | h1 | h1 | h1 <;> obtain ⟨he, rfl, rfl, rfl, rfl⟩ := h1 <;>
      simp_all [ServiceEnabled, TransportEnabled]
  · rintro ⟨h1, h2, rfl, rfl⟩
    refine ⟨(true, _), ⟨?_, rfl⟩, rfl⟩
    cases s <;> cases t <;> simp_all [ServiceEnabled, TransportEnabled, candidates]

theorem getRecordType_cases (m : ResMode) : RecordFor m (getRecordType m) := recordFor_iff.2 rfl

theorem inFamily_unique {m m' : ResMode} {a : IpAddr} (h : InFamily m a) (h' : InFamily m' a) : m = m' := by
  cases h <;> cases h' <;> rfl

theorem resolve_literal {parseIp : ParseIp} {dns : Dns} {host : Str} {cfg : ResConf} {a : IpAddr} (h : parseIp host = some a) :
    (InFamily cfg.mode a ∧ resolve parseIp dns host cfg = ([], .ok a)) ∨
      (¬ InFamily cfg.mode a ∧ resolve parseIp dns host cfg = ([], .err)) := by
  unfold resolve
  rw [h]
  cases hm : cfg.mode <;> cases a <;> simp [IpAddr.isIpv4, IpAddr.isIpv6]
  · intro hf; cases hf
  · exact .v6 _
  · exact .v4 _
  · intro hf; cases hf

theorem resolve_not_panic (parseIp : ParseIp) (dns : Dns) (host : Str) (cfg : ResConf) : (resolve parseIp dns host cfg).2 ≠ .panic := by
  cases h : parseIp host with
  | some a => rcases resolve_literal (dns := dns) (cfg := cfg) h with ⟨-, e⟩ | ⟨-, e⟩ <;> rw [e] <;> simp
  | none =>
    rw [resolve_eq h]
    rcases askAll_spec dns cfg.mode (candidates host cfg) with ⟨-, h2, -⟩ | ⟨pre, q, post, l, -, -, -, -, h5⟩
    · rw [h2]; simp
    · rw [h5]; exact getFirstResult_not_panic

theorem resolve_family {parseIp : ParseIp} {dns : Dns} {host : Str} {cfg : ResConf} {a : IpAddr} (h : (resolve parseIp dns host cfg).2 = .ok a) :
    InFamily cfg.mode a := by
  cases hp : parseIp host with
  | some b =>
    rcases resolve_literal (dns := dns) (cfg := cfg) hp with ⟨hf, e⟩ | ⟨-, e⟩ <;> rw [e] at h
    · simp only [R.ok.injEq] at h; subst h; exact hf
    · cases h
  | none =>
    rw [resolve_eq hp] at h
    rcases askAll_spec dns cfg.mode (candidates host cfg) with ⟨-, h2, -⟩ | ⟨pre, q, post, l, -, -, -, -, h5⟩
    · rw [h2] at h; cases h
    · rw [h5, getFirstResult_iff] at h; exact firstAddr_family h

/-! ## Connection and knock -/

theorem toControlPort_spec {conf : Config} (hp : conf.port.tcp = true ∨ conf.port.udp = true) (server : KnockServer) :
    ((server.toControlPort conf).tcp = true ↔ ByTcp server conf) ∧ ((server.toControlPort conf).udp = true ↔ ¬ ByTcp server conf) ∧
      ServerPort server conf (server.toControlPort conf).port := by
  obtain ⟨addr, mode, port, pt, pu⟩ := server
  unfold KnockServer.toControlPort ByTcp ServerPort
  cases hc : conf.port with
  | mk p t u =>
  rw [hc] at hp
  cases port <;> cases pt <;> cases pu <;> cases t <;> cases u <;> simp_all

theorem clientNew_spec {conf : Config} (hp : conf.port.tcp = true ∨ conf.port.udp = true) (server : KnockServer) (parseIp : ParseIp) (dns : Dns)
    (opens : Opens) (cfg : ResConf) :
    (∃ a act, (resolve parseIp dns server.addr cfg).2 = .ok a ∧ Connection server conf a act ∧
        (clientNew parseIp dns opens server.addr (server.toControlPort conf) cfg) =
          ((resolve parseIp dns server.addr cfg).1.map .dns ++ [act], if opens act then .ok act else .err)) ∨
      ((resolve parseIp dns server.addr cfg).2 = .err ∧
        clientNew parseIp dns opens server.addr (server.toControlPort conf) cfg = ((resolve parseIp dns server.addr cfg).1.map .dns, .err)) := by
  obtain ⟨h1, h2, h3⟩ := toControlPort_spec hp server
  unfold clientNew
  cases hr : resolve parseIp dns server.addr cfg with
  | mk qs r =>
  cases r with
  | panic =>
    have := resolve_not_panic parseIp dns server.addr cfg
    rw [hr] at this; exact absurd rfl this
  | err => right; exact ⟨rfl, rfl⟩
  | ok a =>
    left
    simp only
    by_cases ht : (server.toControlPort conf).tcp = true
    · have hb := h1.1 ht
      have hu : (server.toControlPort conf).udp = false := by
        cases hu : (server.toControlPort conf).udp with
        | false => rfl
        | true => exact absurd hb (h2.1 hu)
      refine ⟨a, .tcp a (server.toControlPort conf).port, rfl, ⟨_, h3, .inl ⟨hb, rfl⟩⟩, ?_⟩
      rw [if_pos ht, hu]
      rfl
    · have hb : ¬ ByTcp server conf := fun h => ht (h1.2 h)
      have hu := h2.2 hb
      refine ⟨a, .udp a (server.toControlPort conf).port, rfl, ⟨_, h3, .inr ⟨hb, rfl⟩⟩, ?_⟩
      rw [if_neg ht, hu]
      rfl

theorem connection_unique {server : KnockServer} {conf : Config} {a a' : IpAddr} {act : NetAct} (h : Connection server conf a act)
    (h' : Connection server conf a' act) : a = a' := by
  obtain ⟨p, -, h1 | h1⟩ := h <;> obtain ⟨p', -, h2 | h2⟩ := h' <;> have := h1.2.symm.trans h2.2 <;> simp at this <;> exact this.1

theorem connection_not_dns {server : KnockServer} {conf : Config} {a : IpAddr} {q : DnsQuery} : ¬ Connection server conf a (.dns q) := by
  rintro ⟨p, -, ⟨-, h⟩ | ⟨-, h⟩⟩ <;> cases h

theorem ofFamily_conn {server : KnockServer} {conf : Config} {a : IpAddr} {act : NetAct} {m : ResMode} (h : Connection server conf a act)
    (hf : InFamily m a) : OfFamily server conf m act := by
  cases act with
  | dns q => exact absurd h connection_not_dns
  | tcp _ _ => exact ⟨a, hf, h⟩
  | udp _ _ => exact ⟨a, hf, h⟩

theorem resolve_queries {parseIp : ParseIp} {dns : Dns} {host : Str} {cfg : ResConf} {q : DnsQuery} (h : q ∈ (resolve parseIp dns host cfg).1) :
    parseIp host = none ∧ MayAsk cfg host q := by
  cases hp : parseIp host with
  | some a => rcases resolve_literal (dns := dns) (cfg := cfg) hp with ⟨-, e⟩ | ⟨-, e⟩ <;> rw [e] at h <;> cases h
  | none =>
    refine ⟨rfl, ?_⟩
    rw [resolve_eq hp] at h
    rw [← mem_candidates]
    rcases askAll_spec dns cfg.mode (candidates host cfg) with ⟨h1, -, -⟩ | ⟨pre, q', post, l, h1, h2, -, -, -⟩
    · rw [← h1]; exact h
    · rw [h1]; rw [h2] at h
      rcases List.mem_append.1 h with h | h
      · exact List.mem_append.2 (.inl h)
      · rw [List.mem_singleton.1 h]; simp

/-- What one knock does: it stays in its family, knows its outcome from its own actions, and connects if the name can be resolved. -/
structure KnockFacts (server : KnockServer) (conf : Config) (parseIp : ParseIp) (dns : Dns) (opens : Opens) (exchange : NetAct → R Unit)
    (srv : ResSrv) (crypt : ResCrypt) (m : ResMode) (acts : List NetAct) (res : R Unit) : Prop where
  family : ∀ act ∈ acts, OfFamily server conf m act
  ok : res = .ok () ↔ KnockedOk server conf opens exchange acts m
  connects : ∀ a, (resolve parseIp dns server.addr ⟨m, srv, crypt⟩).2 = .ok a → ∃ act ∈ acts, Connection server conf a act
  literal : ∀ a, parseIp server.addr = some a → ∀ act ∈ acts, Connection server conf a act
  one : acts.countP (fun act => match act with | .dns _ => false | _ => true) ≤ 1
  panic : res = .panic → ∃ act ∈ acts, exchange act = .panic

theorem knockOnce_facts {conf : Config} (hp : conf.port.tcp = true ∨ conf.port.udp = true) (server : KnockServer) (parseIp : ParseIp) (dns : Dns)
    (opens : Opens) (exchange : NetAct → R Unit) (srv : ResSrv) (crypt : ResCrypt) (m : ResMode) :
    KnockFacts server conf parseIp dns opens exchange srv crypt m
      (knockOnce parseIp dns opens exchange server.addr (server.toControlPort conf) srv crypt m).1
      (knockOnce parseIp dns opens exchange server.addr (server.toControlPort conf) srv crypt m).2 := by
  have hq : ∀ q, NetAct.dns q ∈ (resolve parseIp dns server.addr ⟨m, srv, crypt⟩).1.map NetAct.dns →
      OfFamily server conf m (.dns q) ∧ parseIp server.addr = none := by
    intro q h
    obtain ⟨q', h1, h2⟩ := List.mem_map.1 h
    injection h2 with h2
    subst h2
    obtain ⟨h3, h4⟩ := resolve_queries h1
    exact ⟨⟨h4.2.2.2, h4.2.2.1⟩, h3⟩
  have hc0 : ∀ l : List DnsQuery, (l.map NetAct.dns).countP (fun act => match act with | .dns _ => false | _ => true) = 0 := by
    intro l; rw [List.countP_eq_zero]; intro a ha; obtain ⟨q, -, rfl⟩ := List.mem_map.1 ha; simp
  unfold knockOnce
  rcases clientNew_spec hp server parseIp dns opens ⟨m, srv, crypt⟩ with ⟨a, act, h1, h2, h3⟩ | ⟨h1, h3⟩
  · have hf : InFamily m a := resolve_family h1
    have hfam : ∀ x ∈ (resolve parseIp dns server.addr ⟨m, srv, crypt⟩).1.map NetAct.dns ++ [act], OfFamily server conf m x := by
      intro x hx
      rcases List.mem_append.1 hx with hx | hx
      · obtain ⟨q, -, rfl⟩ := List.mem_map.1 hx
        exact (hq q hx).1
      · rw [List.mem_singleton.1 hx]; exact ofFamily_conn h2 hf
    have hlit : ∀ b, parseIp server.addr = some b → ∀ x ∈ (resolve parseIp dns server.addr ⟨m, srv, crypt⟩).1.map NetAct.dns ++ [act],
        Connection server conf b x := by
      intro b hb x hx
      have e : (resolve parseIp dns server.addr ⟨m, srv, crypt⟩) = ([], .ok a) ∧ a = b := by
        rcases resolve_literal (dns := dns) (cfg := ⟨m, srv, crypt⟩) hb with ⟨-, e⟩ | ⟨-, e⟩ <;> rw [e] at h1
        · simp at h1; subst h1; exact ⟨e, rfl⟩
        · cases h1
      rw [e.1] at hx
      simp at hx
      rw [hx, ← e.2]
      exact h2
    have hconn : ∀ b, (resolve parseIp dns server.addr ⟨m, srv, crypt⟩).2 = .ok b →
        ∃ x ∈ (resolve parseIp dns server.addr ⟨m, srv, crypt⟩).1.map NetAct.dns ++ [act], Connection server conf b x := by
      intro b hb
      rw [h1] at hb
      injection hb with hb
      subst hb
      exact ⟨act, by simp, h2⟩
    have hone : ((resolve parseIp dns server.addr ⟨m, srv, crypt⟩).1.map NetAct.dns ++ [act]).countP
        (fun act => match act with | .dns _ => false | _ => true) ≤ 1 := by
      rw [List.countP_append, hc0]
      have := List.countP_le_length (p := (fun act : NetAct => match act with | .dns _ => false | _ => true)) (l := [act])
      simpa using this
    have hok : opens act = true → (exchange act = .ok () ↔
        KnockedOk server conf opens exchange ((resolve parseIp dns server.addr ⟨m, srv, crypt⟩).1.map NetAct.dns ++ [act]) m) := by
      intro ho
      constructor
      · intro he; exact ⟨act, by simp, a, hf, h2, ho, he⟩
      · rintro ⟨x, hx, b, -, hb, -, he⟩
        rcases List.mem_append.1 hx with hx | hx
        · obtain ⟨q, -, rfl⟩ := List.mem_map.1 hx
          exact absurd hb connection_not_dns
        · rw [List.mem_singleton.1 hx] at he; exact he
    rw [h3]
    cases ho : opens act with
    | true =>
      simp only [if_true]
      exact ⟨hfam, hok ho, hconn, hlit, hone, fun h => ⟨act, by simp, h⟩⟩
    | false =>
      simp only [if_neg Bool.false_ne_true]
      refine ⟨hfam, ?_, hconn, hlit, hone, fun h => by cases h⟩
      simp only [reduceCtorEq, false_iff]
      rintro ⟨x, hx, b, -, hb, ho', -⟩
      rcases List.mem_append.1 hx with hx | hx
      · obtain ⟨q, -, rfl⟩ := List.mem_map.1 hx
        exact connection_not_dns hb
      · rw [List.mem_singleton.1 hx, ho] at ho'; cases ho'
  · rw [h3]
    refine ⟨?_, ?_, ?_, ?_, ?_, fun h => by cases h⟩
    · intro x hx
      obtain ⟨q, -, rfl⟩ := List.mem_map.1 hx
      exact (hq q hx).1
    · simp only [reduceCtorEq, false_iff]
      rintro ⟨x, hx, b, -, hb, -⟩
      obtain ⟨q, -, rfl⟩ := List.mem_map.1 hx
      exact connection_not_dns hb
    · intro b hb; rw [h1] at hb; cases hb
    · intro b hb x hx
      obtain ⟨q, -, rfl⟩ := List.mem_map.1 hx
      rw [(hq q hx).2] at hb; cases hb
    · simp only; rw [hc0]; omega

/-! ## Options -/

theorem parseDnsItems_iff (ps : List Str) (srv srv' : ResSrv) :
    parseDnsItems ps srv = .ok srv' ↔
      (∀ p ∈ ps, WordText p "system" ∨ WordText p "quad9" ∨ WordText p "google" ∨ WordText p "cloudflare") ∧
      (srv'.system = true ↔ srv.system = true ∨ ∃ p ∈ ps, WordText p "system") ∧
      (srv'.quad9 = true ↔ srv.quad9 = true ∨ ∃ p ∈ ps, WordText p "quad9") ∧
      (srv'.google = true ↔ srv.google = true ∨ ∃ p ∈ ps, WordText p "google") ∧
      (srv'.cloudflare = true ↔ srv.cloudflare = true ∨ ∃ p ∈ ps, WordText p "cloudflare") := by
  induction ps generalizing srv with
  | nil =>
    simp only [parseDnsItems, R.ok.injEq, List.not_mem_nil, false_implies, implies_true, true_and, false_and, exists_false, or_false]
    constructor
    · rintro rfl; simp
    · cases srv; cases srv'
      simp only [ResSrv.mk.injEq]
      rintro ⟨h1, h2, h3, h4⟩
      exact ⟨(Bool.eq_iff_iff.2 h1).symm, (Bool.eq_iff_iff.2 h2).symm, (Bool.eq_iff_iff.2 h3).symm, (Bool.eq_iff_iff.2 h4).symm⟩
  | cons p ps ih =>
    have e1 := wordText_iff (s := p) (w := "system") (by decide)
    have e2 := wordText_iff (s := p) (w := "quad9") (by decide)
    have e3 := wordText_iff (s := p) (w := "google") (by decide)
    have e4 := wordText_iff (s := p) (w := "cloudflare") (by decide)
    rw [trim_toLowercase] at e1 e2 e3 e4
    simp only [parseDnsItems, List.mem_cons, forall_eq_or_imp, exists_eq_or_imp, e1, e2, e3, e4]
    by_cases h1 : toLowercase (trim p) = "system".toList
    · rw [if_pos h1, ih]; simp [h1]
    · rw [if_neg h1]
      by_cases h2 : toLowercase (trim p) = "quad9".toList
      · rw [if_pos h2, ih]; simp [h2]
      · rw [if_neg h2]
        by_cases h3 : toLowercase (trim p) = "google".toList
        · rw [if_pos h3, ih]; simp [h3]
        · rw [if_neg h3]
          by_cases h4 : toLowercase (trim p) = "cloudflare".toList
          · rw [if_pos h4, ih]; simp [h4]
          · rw [if_neg h4]; simp only [h1, h2, h3, h4, or_self, false_and, reduceCtorEq]

theorem parseDnsCryptItems_iff (ps : List Str) (crypt crypt' : ResCrypt) :
    parseDnsCryptItems ps crypt = .ok crypt' ↔
      (∀ p ∈ ps, WordText p "tls" ∨ WordText p "https" ∨ WordText p "unencrypted") ∧
      (crypt'.tls = true ↔ crypt.tls = true ∨ ∃ p ∈ ps, WordText p "tls") ∧
      (crypt'.https = true ↔ crypt.https = true ∨ ∃ p ∈ ps, WordText p "https") ∧
      (crypt'.unencrypted = true ↔ crypt.unencrypted = true ∨ ∃ p ∈ ps, WordText p "unencrypted") := by
  induction ps generalizing crypt with
  | nil =>
    simp only [parseDnsCryptItems, R.ok.injEq, List.not_mem_nil, false_implies, implies_true, true_and, false_and, exists_false, or_false]
    constructor
    · rintro rfl; simp
    · cases crypt; cases crypt'
      simp only [ResCrypt.mk.injEq]
      rintro ⟨h1, h2, h3⟩
      exact ⟨(Bool.eq_iff_iff.2 h1).symm, (Bool.eq_iff_iff.2 h2).symm, (Bool.eq_iff_iff.2 h3).symm⟩
  | cons p ps ih =>
    have e1 := wordText_iff (s := p) (w := "tls") (by decide)
    have e2 := wordText_iff (s := p) (w := "https") (by decide)
    have e3 := wordText_iff (s := p) (w := "unencrypted") (by decide)
    rw [trim_toLowercase] at e1 e2 e3
    simp only [parseDnsCryptItems, List.mem_cons, forall_eq_or_imp, exists_eq_or_imp, e1, e2, e3]
    by_cases h1 : toLowercase (trim p) = "tls".toList
    · rw [if_pos h1, ih]; simp [h1]
    · rw [if_neg h1]
      by_cases h2 : toLowercase (trim p) = "https".toList
      · rw [if_pos h2, ih]; simp [h2]
      · rw [if_neg h2]
        by_cases h3 : toLowercase (trim p) = "unencrypted".toList
        · rw [if_pos h3, ih]; simp [h3]
        · rw [if_neg h3]; simp only [h1, h2, h3, or_self, false_and, reduceCtorEq]

theorem listsWord_iff {s : Str} {w : String} : ListsWord s w ↔ ∃ p ∈ splitOn ',' s, WordText p w := by
  constructor
  · rintro ⟨ps, h, h1⟩; rw [pieces_iff] at h; rw [h]; exact h1
  · intro h; exact ⟨_, pieces_iff.2 rfl, h⟩

theorem wordList_iff {s : Str} {ws : List String} : WordList s ws ↔ ∀ p ∈ splitOn ',' s, ∃ w ∈ ws, WordText p w := by
  constructor
  · rintro ⟨ps, h, h1⟩; rw [pieces_iff] at h; rw [h]; exact h1
  · intro h; exact ⟨_, pieces_iff.2 rfl, h⟩

theorem parseDns_iff {s : Str} {srv : ResSrv} : parseDns s = .ok srv ↔ DnsText s srv := by
  unfold parseDns DnsText
  rw [parseDnsItems_iff]
  simp [listsWord_iff, wordList_iff]

theorem parseDnsCrypt_iff {s : Str} {crypt : ResCrypt} : parseDnsCrypt s = .ok crypt ↔ DnsCryptText s crypt := by
  unfold parseDnsCrypt DnsCryptText
  rw [parseDnsCryptItems_iff]
  simp [listsWord_iff, wordList_iff]

end Letmein
