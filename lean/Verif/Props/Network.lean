import Verif.Lemmas.Network

/-!
# Properties C15 and C16: the active network attacker
-/

namespace Letmein.Props

open Letmein Prog Spec

/-- Core of C15: a Response accepted by a server session. -/
theorem accepted_response (mac : MacFn) (who : Nat → Party) (G : List GEv) (hG : GlobalRun mac who G)
    {pre p2 : List GEv} {sid : Nat} {resp : Message} {nonce : Auth} {key : Key}
    (hs : G = pre ++ (sid, ⟨.recv, .msg resp⟩) :: p2) (hn : (sid, ⟨.rand32, some nonce⟩) ∈ pre)
    (hv : ValidResponse mac key nonce resp) (htag : TagSentBy who pre key resp.auth) :
    (∃ g1 cid ev g2, pre = g1 ++ (cid, ev) :: g2 ∧
      Answers mac who g1 cid ev key resp.user resp.resource nonce ∧ ∃ m, sentMsg ev = some m ∧ m.auth = resp.auth) ∨
    CollisionInRun mac who (pre ++ [(sid, ⟨.recv, .msg resp⟩)]) key := by
  obtain ⟨cid, e, m, ⟨addr, u, r, hc⟩, hmem, hsent, hauth⟩ := htag
  obtain ⟨g1, g2, hpre⟩ := List.append_of_mem hmem
  obtain ⟨o, ht⟩ := hG cid
  rw [hc] at ht
  have hproj : proj cid G = proj cid g1 ++ e :: proj cid (g2 ++ (sid, ⟨.recv, .msg resp⟩) :: p2) := by
    rw [hs, hpre, List.append_assoc, proj_append, List.cons_append, proj_cons_self]
  have hchk : CheckedText (pre ++ [(sid, ⟨.recv, .msg resp⟩)])
      (authText 2 resp.user.raw.toNat resp.resource.raw.toNat resp.salt.val nonce.val) :=
    ⟨sid, resp, nonce, by simp, by simp [hn], rfl⟩
  rcases C13_sends mac u r key _ o ht _ _ _ hproj m hsent with ⟨_, _, hk⟩ | ⟨_, ch, _, hch, hrec, _, _, hr⟩
  · right
    obtain ⟨h1, h2, h3, h4⟩ := hk
    refine ⟨_, _, ⟨cid, e, m, ⟨addr, u, r, hc⟩, by simp [hmem], hsent, .inl ⟨h1, rfl⟩⟩, hchk, ?_, ?_⟩
    · intro he
      have := (authText_inj (op := .Knock) (op' := .Response) (c := ZERO_AUTH) he).1
      cases this
    · rw [← hv.tag, ← hauth, h4, h2, h3]
  · obtain ⟨h1, h2, h3, h4⟩ := hr
    have hheard : (cid, ⟨.recv, .msg ch⟩) ∈ g1 := by
      rw [← mem_proj]
      have : ch ∈ received (proj cid g1) := by rw [hrec]; simp
      obtain ⟨ev, he, hev⟩ := List.mem_filterMap.1 this
      have : ev = ⟨.recv, .msg ch⟩ := by
        unfold recvd at hev
        split at hev
        · injection hev with hev; rw [hev]
        · cases hev
      exact this ▸ he
    by_cases ht : authText 2 m.user.raw.toNat m.resource.raw.toNat m.salt.val ch.auth.val =
        authText 2 resp.user.raw.toNat resp.resource.raw.toNat resp.salt.val nonce.val
    · left
      obtain ⟨_, e1, e2, e3, e4⟩ := authText_inj (op := .Response) (op' := .Response) ht
      obtain ⟨b, hev⟩ : ∃ b, e = ⟨.send m, b⟩ := by
        unfold sentMsg at hsent
        split at hsent
        · rename_i b; injection hsent with hsent; exact ⟨b, by rw [hsent]⟩
        · cases hsent
      refine ⟨g1, cid, e, g2, hpre, ⟨⟨addr, ?_⟩, ⟨ch, hch, e4, hheard⟩, ⟨m, b, hev, e1, e2, h1, ?_⟩⟩, m, hsent, hauth⟩
      · rw [hc, ← e1, ← e2, h2, h3]
      · rw [hauth, hv.tag, ← ht, e4]
    · right
      refine ⟨_, _, ⟨cid, e, m, ⟨addr, u, r, hc⟩, by simp [hmem], hsent,
        .inr ⟨h1, ch, by simp [hpre, hheard], rfl⟩⟩, hchk, ht, ?_⟩
      rw [← hv.tag, ← hauth, h4, h2, h3]

/-- What session `sid` has established before it asks for `m`: a granted resource, its own challenge and an accepted
Response. -/
structure Established (mac : MacFn) (conf : Config) (peer : IpAddr) (sid : Nat) (pre : List GEv) (m : FwMessage)
    (u : UserId) (r : ResourceId) (key : Key) (nonce : Auth) : Prop where
  known : conf.key u = some key
  request : ∃ res pt, Granted conf u r res ∧ m = FwMessage.newOpen peer pt res.port ∧ opensTcp pt = res.tcp ∧
    opensUdp pt = res.udp
  accepted : ∃ p1 p2 resp, pre = p1 ++ (sid, ⟨.recv, .msg resp⟩) :: p2 ∧ (sid, ⟨.rand32, some nonce⟩) ∈ p1 ∧
    resp.user = u ∧ resp.resource = r ∧ ValidResponse mac key nonce resp

theorem request_established (mac : MacFn) (who : Nat → Party) (G : List GEv) (hG : GlobalRun mac who G)
    (sid : Nat) (conf : Config) (peer : IpAddr) (hw : who sid = .server conf peer)
    (pre : List GEv) (e : Ev) (post : List GEv) (hs : G = pre ++ (sid, e) :: post) (m : FwMessage)
    (he : fwReq e = some m) : ∃ u r key nonce, Established mac conf peer sid pre m u r key nonce := by
  obtain ⟨o, ht⟩ := hG sid
  rw [hw] at ht
  have hproj : proj sid G = proj sid pre ++ e :: proj sid post := by rw [hs, proj_append, proj_cons_self]
  obtain ⟨knock, ch, resp, nonce, key, res, pt, hf, hm, hpt, hpu, _, _⟩ :=
    C08_request_content mac conf peer _ o ht _ _ _ hproj m he
  have hsub : [⟨.rand32, some nonce⟩, ⟨.recv, .msg resp⟩].Sublist (proj sid pre) := by
    refine List.Sublist.trans ?_ hf.order
    exact .cons _ (.cons_cons _ (.cons _ (.cons_cons _ .slnil)))
  obtain ⟨l1, l2, hl, hmem⟩ := sublist_pair hsub
  obtain ⟨p1, p2, hp, hp1⟩ := proj_split hl
  refine ⟨knock.user, knock.resource, key, nonce, hf.knockOk.known, ⟨res, pt, hf.granted, hm, hpt, hpu⟩,
    p1, p2, resp, hp, ?_, hf.sameUser, hf.sameResource, hf.respOk⟩
  rw [← mem_proj, hp1]; exact hmem

theorem Forgery.mono {mac : MacFn} {who : Nat → Party} {G : List GEv} {key : Key} (h : Forgery mac who G key)
    (post : List GEv) : Forgery mac who (G ++ post) key := by
  obtain ⟨a, sid, resp, b, nonce, rfl, h1, h2, h3⟩ := h
  exact ⟨a, sid, resp, b ++ post, nonce, by simp, h1, h2, h3⟩

theorem CollisionInRun.mono {mac : MacFn} {who : Nat → Party} {G : List GEv} {key : Key} (h : CollisionInRun mac who G key)
    (post : List GEv) : CollisionInRun mac who (G ++ post) key := by
  obtain ⟨t1, t2, ⟨i, e, m, a1, a2, a3, a4⟩, ⟨j, resp, n, b1, b2, b3⟩, h1, h2⟩ := h
  refine ⟨t1, t2, ⟨i, e, m, a1, by simp [a2], a3, ?_⟩, ⟨j, resp, n, by simp [b1], by simp [b2], b3⟩, h1, h2⟩
  rcases a4 with h | ⟨h, ch, hc, ht⟩
  · exact .inl h
  · exact .inr ⟨h, ch, by simp [hc], ht⟩

/-- **C15** (authentication). In every interleaving of any number of clients and server sessions with everything received
chosen by the attacker: before a server session asks for an opening, a client holding the user's key has answered exactly
the challenge this session has drawn, for exactly this user and resource — unless a valid tag was presented that
no holder of the key ever produced (a forgery), or two texts of this run collide under the MAC. -/
theorem C15_request_needs_live_client (mac : MacFn) (who : Nat → Party) (G : List GEv) (hG : GlobalRun mac who G)
    (sid : Nat) (conf : Config) (peer : IpAddr) (hw : who sid = .server conf peer)
    (pre : List GEv) (e : Ev) (post : List GEv) (hs : G = pre ++ (sid, e) :: post) (m : FwMessage)
    (he : fwReq e = some m) :
    ∃ u r key nonce, Established mac conf peer sid pre m u r key nonce ∧
      ((∃ g1 cid ev g2, pre = g1 ++ (cid, ev) :: g2 ∧ Answers mac who g1 cid ev key u r nonce) ∨
        Forgery mac who pre key ∨ CollisionInRun mac who pre key) := by
  obtain ⟨u, r, key, nonce, hest⟩ := request_established mac who G hG sid conf peer hw pre e post hs m he
  refine ⟨u, r, key, nonce, hest, ?_⟩
  obtain ⟨p1, p2, resp, hp, hn, hu, hr, hv⟩ := hest.accepted
  by_cases htag : TagSentBy who p1 key resp.auth
  · have hG' : G = p1 ++ (sid, ⟨.recv, .msg resp⟩) :: (p2 ++ (sid, e) :: post) := by rw [hs, hp]; simp
    rcases accepted_response mac who G hG hG' hn hv htag with ⟨g1, cid, ev, g2, h1, h2, _⟩ | h
    · left
      exact ⟨g1, cid, ev, g2 ++ (sid, ⟨.recv, .msg resp⟩) :: p2, by rw [hp, h1]; simp, hu ▸ hr ▸ h2⟩
    · right; right
      have := CollisionInRun.mono h p2
      rw [hp]
      simpa using this
  · exact .inr (.inl ⟨p1, sid, resp, p2, nonce, hp, hn, hv, htag⟩)

/-- **C15** (freshness). If nobody had heard the challenge bytes as a challenge before the server session drew them, the
client's answer was given after the session drew its challenge: recorded Responses are useless. -/
theorem C15_answer_is_fresh (mac : MacFn) (who : Nat → Party) (pre : List GEv) (sid : Nat) (nonce : Auth)
    (a b : List GEv) (hdraw : pre = a ++ (sid, ⟨.rand32, some nonce⟩) :: b)
    (hunpredicted : ∀ i ch, (i, ⟨.recv, .msg ch⟩) ∈ a → ch.operation = .Challenge → ch.auth ≠ nonce)
    (g1 : List GEv) (cid : Nat) (ev : Ev) (g2 : List GEv) (hpre : pre = g1 ++ (cid, ev) :: g2)
    (key : Key) (u : UserId) (r : ResourceId) (ha : Answers mac who g1 cid ev key u r nonce) :
    (sid, ⟨.rand32, some nonce⟩) ∈ g1 := by
  obtain ⟨ch, hop, hn, hmem⟩ := ha.heard
  rw [hdraw] at hpre
  rcases List.append_eq_append_iff.1 hpre with ⟨c, hc, hb⟩ | ⟨c, hc, hb⟩
  · rw [hc] at hmem ⊢
    cases c with
    | nil => simp at hmem; exact absurd hn (hunpredicted _ _ hmem hop)
    | cons x c =>
      simp at hb
      rw [hb.1]; simp
  · exact absurd hn (hunpredicted cid ch (by rw [hc]; simp [hmem]) hop)

/-- **C15** (one Response, one session). The same tag is accepted by two server sessions under one key only if they drew
the same challenge bytes, or if two texts checked by the server collide. -/
theorem C15_response_serves_one_session (mac : MacFn) (key : Key) (n₁ n₂ : Auth) (r₁ r₂ : Message)
    (h₁ : ValidResponse mac key n₁ r₁) (h₂ : ValidResponse mac key n₂ r₂) (ht : r₁.auth = r₂.auth) :
    n₁ = n₂ ∨ Collision mac key (authText 2 r₁.user.raw.toNat r₁.resource.raw.toNat r₁.salt.val n₁.val)
      key (authText 2 r₂.user.raw.toNat r₂.resource.raw.toNat r₂.salt.val n₂.val) := by
  by_cases h : authText 2 r₁.user.raw.toNat r₁.resource.raw.toNat r₁.salt.val n₁.val =
      authText 2 r₂.user.raw.toNat r₂.resource.raw.toNat r₂.salt.val n₂.val
  · exact .inl (authText_inj (op := .Response) (op' := .Response) h).2.2.2.2
  · exact .inr ⟨fun he => h (by injection he), by rw [← h₁.tag, ← h₂.tag, ht]⟩

/-- Is the event of a session the transmission of a Response? -/
def isResponseSent (e : Ev) : Bool := (sentMsg e).any (fun m => m.operation = .Response)

/-- Is this the transmission of a Response by a client that acts as user `u` with `key`? -/
def isResponseBy (who : Nat → Party) (u : UserId) (key : Key) (e : GEv) : Bool :=
  match who e.1 with
  | .client _ u' _ k => decide (u' = u) && decide (k = key) && isResponseSent e.2
  | _ => false

/-- Session `sid` is a server session that asks for an opening for user `u`, whose key is `key`. -/
def AsksFor (mac : MacFn) (who : Nat → Party) (G : List GEv) (u : UserId) (key : Key) (sid : Nat) : Prop :=
  ∃ conf peer pre e post m r nonce, who sid = .server conf peer ∧ G = pre ++ (sid, e) :: post ∧ fwReq e = some m ∧
    Established mac conf peer sid pre m u r key nonce

theorem answers_unique {mac : MacFn} {who : Nat → Party} {G : List GEv} (hG : GlobalRun mac who G)
    {g1 g2 : List GEv} {cid : Nat} {ev : Ev} (hs : G = g1 ++ (cid, ev) :: g2) {key : Key} {u : UserId}
    {r r' : ResourceId} {n n' : Auth}
    (h : Answers mac who g1 cid ev key u r n) (h' : Answers mac who g1 cid ev key u r' n') : n = n' := by
  obtain ⟨addr, hw⟩ := h.party
  obtain ⟨o, ht⟩ := hG cid
  rw [hw] at ht
  have hproj : proj cid G = proj cid g1 ++ ev :: proj cid g2 := by rw [hs, proj_append, proj_cons_self]
  obtain ⟨m, b, hev, _, _, hv⟩ := h.sent
  obtain ⟨ch1, _, e1, m1⟩ := h.heard
  obtain ⟨ch2, _, e2, m2⟩ := h'.heard
  have hm1 : ch1 ∈ received (proj cid g1) := List.mem_filterMap.2 ⟨_, mem_proj.2 m1, rfl⟩
  have hm2 : ch2 ∈ received (proj cid g1) := List.mem_filterMap.2 ⟨_, mem_proj.2 m2, rfl⟩
  rcases C13_sends mac u r key _ o ht _ _ _ hproj m (by rw [hev]; rfl) with ⟨_, _, hk⟩ | ⟨_, ch, _, _, hrec, _, _, _⟩
  · exact absurd (hv.op.symm.trans hk.1) (by decide)
  · rw [hrec, List.mem_singleton] at hm1 hm2
    rw [← e1, ← e2, hm1, hm2]

theorem zipIdx_filter_length {α : Type} (p : α → Bool) (l : List α) (n : Nat) :
    ((l.zipIdx n).filter (fun x => p x.1)).length = (l.filter p).length := by
  induction l generalizing n with
  | nil => rfl
  | cons a l ih =>
    rw [List.zipIdx_cons]
    by_cases h : p a = true
    · rw [List.filter_cons_of_pos (by exact h), List.filter_cons_of_pos h]; simp [ih]
    · rw [List.filter_cons_of_neg (by exact h), List.filter_cons_of_neg h]; simp [ih]

/-- **C15** (counting). If no two sessions draw the same challenge bytes and there is neither a forgery under the user's
key nor a collision in the run, then at most as many server sessions ask for an opening for this user as
clients acting as this user have sent Responses: replaying recorded traffic never yields an additional opening. -/
theorem C15_no_more_openings_than_responses (mac : MacFn) (who : Nat → Party) (G : List GEv) (hG : GlobalRun mac who G)
    (u : UserId) (key : Key) (hforge : ¬ Forgery mac who G key) (hcoll : ¬ CollisionInRun mac who G key)
    (hnonce : ∀ i j n, (i, ⟨.rand32, some n⟩) ∈ G → (j, ⟨.rand32, some n⟩) ∈ G → i = j)
    (sids : List Nat) (hnodup : sids.Nodup) (hask : ∀ sid ∈ sids, AsksFor mac who G u key sid) :
    sids.length ≤ (G.filter (isResponseBy who u key)).length := by
  rw [← zipIdx_filter_length _ G 0]
  refine injective_length (fun sid (x : GEv × Nat) => ∃ n r g1 g2, (sid, ⟨.rand32, some n⟩) ∈ G ∧ G = g1 ++ x.1 :: g2 ∧
    g1.length = x.2 ∧ Answers mac who g1 x.1.1 x.1.2 key u r n) sids _ hnodup ?_ ?_
  · intro sid hsid
    obtain ⟨conf, peer, pre, e, post, m, r, nonce, hw, hs, he, hest⟩ := hask sid hsid
    obtain ⟨p1, p2, resp, hp, hn, hu, hr, hv⟩ := hest.accepted
    have hG' : G = p1 ++ (sid, ⟨.recv, .msg resp⟩) :: (p2 ++ (sid, e) :: post) := by rw [hs, hp]; simp
    have htag : TagSentBy who p1 key resp.auth := by
      by_cases htag : TagSentBy who p1 key resp.auth
      · exact htag
      · exact absurd ⟨p1, sid, resp, _, nonce, hG', hn, hv, htag⟩ hforge
    rcases accepted_response mac who G hG hG' hn hv htag with ⟨g1, cid, ev, g2, h1, h2, _⟩ | h
    · rw [hu, hr] at h2
      have hG2 : G = g1 ++ (cid, ev) :: (g2 ++ (sid, ⟨.recv, .msg resp⟩) :: (p2 ++ (sid, e) :: post)) := by
        rw [hG', h1]; simp
      refine ⟨((cid, ev), g1.length), ?_, nonce, r, g1, _, by rw [hG']; simp [hn], hG2, rfl, h2⟩
      rw [List.mem_filter]
      constructor
      · rw [List.mem_zipIdx_iff_getElem?]
        simp [hG2]
      · obtain ⟨addr, hc⟩ := h2.party
        obtain ⟨m', b, hev, _, _, hv'⟩ := h2.sent
        simp [isResponseBy, hc, isResponseSent, hev, sentMsg, hv'.op]
    · refine absurd ?_ hcoll
      have := CollisionInRun.mono h (p2 ++ (sid, e) :: post)
      rw [hG']
      simpa using this
  · rintro sid _ sid' _ ⟨x, i⟩ ⟨n, r, g1, g2, hn, hs, hl, ha⟩ ⟨n', r', g1', g2', hn', hs', hl', ha'⟩
    have hg : g1 = g1' := by
      have := hs.symm.trans hs'
      exact (List.append_inj this (hl.trans hl'.symm)).1
    subst hg
    have := answers_unique hG hs ha ha'
    subst this
    exact hnonce _ _ _ hn hn'

/-! ### C16 -/

/-- **C16** (what holds). The opening is requested for the address the server sees as its peer. If the network does not
let anybody use a foreign source address or relay (everything a server session for `peer` receives was sent before by a
client located at `peer`), a holder of the user's key at exactly this address answered this session's challenge — or the
MAC collides on two texts of the run: the one a client at this address authenticated for a challenge it had received, and
the one this session checked.
Missing from the full claim: the premise on the network; see `C16_fails_with_relay`. -/
theorem C16_address_partial (mac : MacFn) (who : Nat → Party) (G : List GEv) (hG : GlobalRun mac who G)
    (sid : Nat) (conf : Config) (peer : IpAddr) (hw : who sid = .server conf peer)
    (hsrc : ∀ a msg b, G = a ++ (sid, ⟨.recv, .msg msg⟩) :: b →
      ∃ cid u r k ok, who cid = .client peer u r k ∧ (cid, ⟨.send msg, ok⟩) ∈ a)
    (pre : List GEv) (e : Ev) (post : List GEv) (hs : G = pre ++ (sid, e) :: post) (m : FwMessage)
    (he : fwReq e = some m) :
    ∃ u r key nonce, Established mac conf peer sid pre m u r key nonce ∧
      ∃ cid k resp ok, who cid = .client peer u r k ∧ ValidResponse mac key nonce resp ∧
        (cid, ⟨.send resp, ok⟩) ∈ pre ∧ (sid, ⟨.recv, .msg resp⟩) ∈ pre ∧
        ((k = key ∧ ∃ g1 ev g2, pre = g1 ++ (cid, ev) :: g2 ∧ Answers mac who g1 cid ev key u r nonce) ∨
          ∃ ch, ch.operation = .Challenge ∧ (cid, ⟨.recv, .msg ch⟩) ∈ pre ∧
            Collision mac k (authText 2 u.raw.toNat r.raw.toNat resp.salt.val ch.auth.val)
            key (authText 2 u.raw.toNat r.raw.toNat resp.salt.val nonce.val)) := by
  obtain ⟨u, r, key, nonce, hest⟩ := request_established mac who G hG sid conf peer hw pre e post hs m he
  refine ⟨u, r, key, nonce, hest, ?_⟩
  obtain ⟨p1, p2, resp, hp, hn, hu, hr, hv⟩ := hest.accepted
  have hG' : G = p1 ++ (sid, ⟨.recv, .msg resp⟩) :: (p2 ++ (sid, e) :: post) := by rw [hs, hp]; simp
  obtain ⟨cid, u', r', k, ok, hc, hmem⟩ := hsrc _ _ _ hG'
  obtain ⟨g1, g2, hp1⟩ := List.append_of_mem hmem
  obtain ⟨o, ht⟩ := hG cid
  rw [hc] at ht
  have hproj : proj cid G = proj cid g1 ++ ⟨.send resp, ok⟩ ::
      proj cid (g2 ++ (sid, ⟨.recv, .msg resp⟩) :: (p2 ++ (sid, e) :: post)) := by
    rw [hG', hp1, List.append_assoc, proj_append, List.cons_append, proj_cons_self]
  rcases C13_sends mac u' r' k _ o ht _ _ _ hproj resp rfl with ⟨_, _, hk⟩ | ⟨_, ch, _, hch, hrec, _, _, hr'⟩
  · exact absurd (hv.op.symm.trans hk.1) (by decide)
  · obtain ⟨h1, h2, h3, h4⟩ := hr'
    have eu : u' = u := h2.symm.trans hu
    have er : r' = r := h3.symm.trans hr
    subst eu er
    refine ⟨cid, k, resp, ok, hc, hv, by rw [hp]; exact List.mem_append_left _ hmem, by rw [hp]; simp, ?_⟩
    have hheard : (cid, ⟨.recv, .msg ch⟩) ∈ g1 := by
      rw [← mem_proj]
      have : ch ∈ received (proj cid g1) := by rw [hrec]; simp
      obtain ⟨ev, he, hev⟩ := List.mem_filterMap.1 this
      have : ev = ⟨.recv, .msg ch⟩ := by
        unfold recvd at hev
        split at hev
        · injection hev with hev; rw [hev]
        · cases hev
      exact this ▸ he
    have htag := hv.tag
    rw [h4, hu, hr] at htag
    by_cases hx : (k, authText 2 u'.raw.toNat r'.raw.toNat resp.salt.val ch.auth.val) =
        (key, authText 2 u'.raw.toNat r'.raw.toNat resp.salt.val nonce.val)
    · left
      injection hx with hk htx
      obtain ⟨_, _, _, _, e4⟩ := authText_inj (op := .Response) (op' := .Response) htx
      subst hk
      exact ⟨rfl, g1, _, g2 ++ (sid, ⟨.recv, .msg resp⟩) :: p2, by rw [hp, hp1]; simp,
        ⟨_, hc⟩, ⟨ch, hch, e4, hheard⟩, ⟨resp, ok, rfl, hu, hr, hv⟩⟩
    · exact .inr ⟨ch, hch, by rw [hp, hp1]; simp [hheard], hx, htag⟩

/-! ### A concrete run: a relayed but otherwise honest knock -/

/-- Session 0: a client at `addr`; session 1: a server session for a connection from 192.0.2.7. -/
def relayWho (addr : IpAddr) : Nat → Party
  | 0 => .client addr ⟨0xA423DDA7⟩ ⟨0xBC5D8077⟩ (Arr.replicate 32 7)
  | 1 => .server exampleConf examplePeer
  | _ => .nobody

/-- The host 192.0.2.7 passes all messages on. -/
def relayRun : List GEv :=
  let challenge : Message := { Message.new .Challenge ⟨0xA423DDA7⟩ ⟨0xBC5D8077⟩ goodSalt with auth := goodNonce }
  let comeIn : Message := Message.new .ComeIn ⟨0xA423DDA7⟩ ⟨0xBC5D8077⟩ goodSalt
  [(0, ⟨.connect, true⟩), (0, ⟨.rand8, some goodSalt⟩), (0, ⟨.send exampleKnock, true⟩),
   (1, ⟨.recv, .msg exampleKnock⟩), (1, ⟨.rand8, some goodSalt⟩), (1, ⟨.rand32, some goodNonce⟩),
   (1, ⟨.send challenge, true⟩), (0, ⟨.recv, .msg challenge⟩), (0, ⟨.rand8, some goodSalt⟩),
   (0, ⟨.send exampleResponse, true⟩), (1, ⟨.recv, .msg exampleResponse⟩), (1, ⟨.fwConnect, true⟩),
   (1, ⟨.fwSend (FwMessage.newOpen examplePeer .Tcp 22), true⟩), (1, ⟨.fwRecv, .msg FwMessage.newAck⟩),
   (1, ⟨.rand8, some goodSalt⟩), (1, ⟨.send comeIn, true⟩), (0, ⟨.recv, .msg comeIn⟩)]

theorem relayRun_run (addr : IpAddr) : GlobalRun toyMac (relayWho addr) relayRun := by
  intro sid
  match sid with
  | 0 =>
    refine ⟨(play (knockSequence toyMac ⟨0xA423DDA7⟩ ⟨0xBC5D8077⟩ (Arr.replicate 32 7)) clientScript).2, ?_⟩
    have h : proj 0 relayRun = (play (knockSequence toyMac ⟨0xA423DDA7⟩ ⟨0xBC5D8077⟩ (Arr.replicate 32 7)) clientScript).1 := by
      decide +kernel
    rw [h]
    exact play_trace _ _
  | 1 =>
    refine ⟨(play (session toyMac exampleConf examplePeer) exampleScript).2, ?_⟩
    have h : proj 1 relayRun = (play (session toyMac exampleConf examplePeer) exampleScript).1 := by decide +kernel
    rw [h]
    exact play_trace _ _
  | n + 2 => exact ⟨none, rfl, .inl rfl⟩

theorem relayRun_no_forgery (addr : IpAddr) : ¬ Forgery toyMac (relayWho addr) relayRun (Arr.replicate 32 7) := by
  rintro ⟨pre, sid, resp, post, nonce, hG, hn, _, ht⟩
  have hl : pre.length < 17 := by
    have := congrArg List.length hG
    simp [relayRun] at this
    omega
  have hpre : pre = relayRun.take pre.length := by rw [hG]; simp
  have hx : relayRun[pre.length]? = some (sid, ⟨.recv, .msg resp⟩) := by rw [hG]; simp
  generalize pre.length = i at *
  subst hpre
  have : i = 0 ∨ i = 1 ∨ i = 2 ∨ i = 3 ∨ i = 4 ∨ i = 5 ∨ i = 6 ∨ i = 7 ∨ i = 8 ∨ i = 9 ∨ i = 10 ∨ i = 11 ∨ i = 12 ∨
    i = 13 ∨ i = 14 ∨ i = 15 ∨ i = 16 := by omega
  rcases this with h | h | h | h | h | h | h | h | h | h | h | h | h | h | h | h | h <;> subst h <;>
    simp [relayRun] at hx hn
  · simp [← hx.1] at hn
  · refine ht ⟨0, ⟨.send exampleResponse, true⟩, exampleResponse, ⟨_, _, _, rfl⟩, by simp [relayRun], rfl, by rw [← hx.2]⟩
  · simp [← hx.1] at hn

theorem relayRun_no_collision (addr : IpAddr) : ¬ CollisionInRun toyMac (relayWho addr) relayRun (Arr.replicate 32 7) := by
  rintro ⟨t₁, t₂, ⟨cid, e, m, ⟨a, u, r, hc⟩, hm, hs, ht⟩, ⟨sid, resp, nonce, h1, h2, h3⟩, hne, heq⟩
  have hcid : cid = 0 := by
    match cid with
    | 0 => rfl
    | 1 => simp [relayWho] at hc
    | n + 2 => simp [relayWho] at hc
  subst hcid
  have hn : sid = 1 ∧ nonce = goodNonce := by simpa [relayRun] using h2
  obtain ⟨rfl, rfl⟩ := hn
  have hr : resp = exampleKnock ∨ resp = exampleResponse := by simpa [relayRun] using h1
  have h3' : t₂ = authText 2 0xA423DDA7 0xBC5D8077 goodSalt.val goodNonce.val := by
    rcases hr with rfl | rfl <;> exact h3
  have hmm : m = exampleKnock ∨ m = exampleResponse := by
    simp [relayRun] at hm
    rcases hm with rfl | rfl | rfl | rfl | rfl | rfl | rfl <;> simp [sentMsg] at hs <;> simp [← hs]
  rcases ht with ⟨ho, ht⟩ | ⟨ho, ch, hch, ht⟩
  · rcases hmm with rfl | rfl
    · rw [ht, h3'] at heq
      revert heq
      decide +kernel
    · exact absurd ho (by decide +kernel)
  · rcases hmm with rfl | rfl
    · exact absurd ho (by decide +kernel)
    · simp [relayRun] at hch
      rcases hch with rfl | rfl
      · exact hne (ht.trans h3'.symm)
      · rw [ht, h3'] at heq
        revert heq
        decide +kernel

/-- The hypotheses of the counting theorem of C15 are met by a run in which an opening is requested. -/
example (addr : IpAddr) : GlobalRun toyMac (relayWho addr) relayRun ∧
    ¬ Forgery toyMac (relayWho addr) relayRun (Arr.replicate 32 7) ∧
    ¬ CollisionInRun toyMac (relayWho addr) relayRun (Arr.replicate 32 7) ∧
    (∀ i j n, (i, ⟨.rand32, some n⟩) ∈ relayRun → (j, ⟨.rand32, some n⟩) ∈ relayRun → i = j) ∧
    AsksFor toyMac (relayWho addr) relayRun ⟨0xA423DDA7⟩ (Arr.replicate 32 7) 1 := by
  refine ⟨relayRun_run addr, relayRun_no_forgery addr, relayRun_no_collision addr, ?_, ?_⟩
  · intro i j n h1 h2
    simp [relayRun] at h1 h2
    rw [h1.1, h2.1]
  · obtain ⟨u, r, key, nonce, h⟩ := request_established toyMac (relayWho addr) relayRun (relayRun_run addr) 1 exampleConf
      examplePeer rfl (relayRun.take 12) ⟨.fwSend (FwMessage.newOpen examplePeer .Tcp 22), true⟩ (relayRun.drop 13) rfl _ rfl
    have hu : u = ⟨0xA423DDA7⟩ := by
      obtain ⟨p1, p2, resp, hp, hn, hu, _⟩ := h.accepted
      have hmem : (1, (⟨.recv, .msg resp⟩ : Ev)) ∈ relayRun.take 12 := by rw [hp]; simp
      simp [relayRun] at hmem
      rw [← hu]
      rcases hmem with rfl | rfl <;> rfl
    have hk : key = Arr.replicate 32 7 := by
      have := h.known
      rw [hu] at this
      have h2 : exampleConf.key ⟨0xA423DDA7⟩ = some (Arr.replicate 32 7) := by decide +kernel
      exact Option.some.inj (this.symm.trans h2)
    subst hu hk
    exact ⟨exampleConf, examplePeer, _, _, _, _, r, nonce, rfl, rfl, rfl, h⟩

/-- **C16** (the full claim fails). A run without forgery and without collision in which the opening is requested
for an address at which no holder of any key is: a host that merely relays the messages between a knocking client and the
server gets the port opened for itself. -/
theorem C16_fails_with_relay : ∃ mac who G sid conf peer pre e post m key,
    GlobalRun mac who G ∧ who sid = .server conf peer ∧ G = pre ++ (sid, e) :: post ∧ fwReq e = some m ∧
    m.addr.val.drop 12 = [192, 0, 2, 7] ∧ m.addrType = .Ipv4 ∧
    ¬ Forgery mac who G key ∧ ¬ CollisionInRun mac who G key ∧
    (∀ cid addr u r k, who cid = .client addr u r k → k = key ∧ addr = .v4 ⟨[203, 0, 113, 9], rfl⟩) := by
  refine ⟨toyMac, relayWho (.v4 ⟨[203, 0, 113, 9], rfl⟩), relayRun, 1, exampleConf, examplePeer, relayRun.take 12,
    ⟨.fwSend (FwMessage.newOpen examplePeer .Tcp 22), true⟩, relayRun.drop 13, _, Arr.replicate 32 7,
    relayRun_run _, rfl, rfl, rfl, rfl, rfl, relayRun_no_forgery _, relayRun_no_collision _, ?_⟩
  intro cid addr u r k h
  match cid with
  | 0 => simp only [relayWho, Party.client.injEq] at h; exact ⟨h.2.2.2.symm, h.1.symm⟩
  | 1 => simp [relayWho] at h
  | n + 2 => simp [relayWho] at h

/-- The premise of `C16_address_partial` is met when the client of the run is at 192.0.2.7 itself. -/
example : ∀ a msg b, relayRun = a ++ (1, ⟨.recv, .msg msg⟩) :: b →
    ∃ cid u r k ok, relayWho examplePeer cid = .client examplePeer u r k ∧ (cid, ⟨.send msg, ok⟩) ∈ a := by
  intro a msg b hG
  have hl : a.length < 17 := by
    have := congrArg List.length hG
    simp [relayRun] at this
    omega
  have hpre : a = relayRun.take a.length := by rw [hG]; simp
  have hx : relayRun[a.length]? = some (1, ⟨.recv, .msg msg⟩) := by rw [hG]; simp
  generalize a.length = i at *
  subst hpre
  have : i = 0 ∨ i = 1 ∨ i = 2 ∨ i = 3 ∨ i = 4 ∨ i = 5 ∨ i = 6 ∨ i = 7 ∨ i = 8 ∨ i = 9 ∨ i = 10 ∨ i = 11 ∨ i = 12 ∨
    i = 13 ∨ i = 14 ∨ i = 15 ∨ i = 16 := by omega
  rcases this with h | h | h | h | h | h | h | h | h | h | h | h | h | h | h | h | h <;> subst h <;>
    simp [relayRun] at hx
  · exact ⟨0, _, _, _, true, rfl, by rw [← hx]; simp [relayRun]⟩
  · exact ⟨0, _, _, _, true, rfl, by rw [← hx]; simp [relayRun]⟩

end Letmein.Props
