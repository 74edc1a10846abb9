import Verif.Spec.Lossy
import Verif.Props.Joint
import Verif.Props.Session

/-!
# Property C105: datagrams delivered twice
-/

namespace Letmein.Props

open Letmein Prog Spec

/-! ## Traces of both sides -/

/-- `q` is what is left of `p` after the events `tr`. -/
inductive Reaches (p : Prog Unit) : List Ev → Prog Unit → Prop where
  | nil : Reaches p [] p
  | snoc {tr a k} (x : a.Resp) : Reaches p tr (.act a k) → Reaches p (tr ++ [⟨a, x⟩]) (k x)

theorem Reaches.trace {p q : Prog Unit} {tr : List Ev} (h : Reaches p tr q) :
    ∀ tr' o, q.Trace tr' o → p.Trace (tr ++ tr') o := by
  induction h with
  | nil => intro tr' o h; simpa using h
  | snoc x _ ih =>
    intro tr' o h'
    have := ih (⟨_, x⟩ :: tr') o ⟨x, rfl, h'⟩
    simpa using this

theorem Reaches.stopped {p q : Prog Unit} {tr : List Ev} (h : Reaches p tr q) : p.Trace tr none := by
  have hq : q.Trace [] none := by
    cases q with
    | ret r => exact ⟨rfl, .inl rfl⟩
    | act a k => rfl
  simpa using h.trace [] none hq

theorem Reaches.done {p : Prog Unit} {tr : List Ev} {x : R Unit} (h : Reaches p tr (.ret x)) : p.Trace tr (some x) := by
  simpa using h.trace [] (some x) ⟨rfl, .inr rfl⟩

/-- What the state of the network says about the traces of both sides. -/
structure LossyInv (c0 s0 : Prog Unit) (L : LossyNet) (ctr str : List Ev) : Prop where
  client : Reaches c0 ctr L.client
  server : Reaches s0 str L.server
  c2s : L.c2s = sent ctr
  s2c : L.s2c = sent str
  cTaken : L.cTaken.map (fun i => L.s2c[i]?) = (received ctr).map some
  sTaken : L.sTaken.map (fun i => L.c2s[i]?) = (received str).map some
  reqs : L.reqs = fwRequests str

theorem taken_append {t : List Nat} {l ms : List Message} (h : t.map (fun i => l[i]?) = ms.map some) (m : Message) :
    t.map (fun i => (l ++ [m])[i]?) = ms.map some := by
  rw [← h]
  apply List.map_congr_left
  intro i hi
  have : l[i]? ∈ ms.map some := h ▸ List.mem_map_of_mem (f := fun i => l[i]?) hi
  obtain ⟨x, -, hx⟩ := List.mem_map.1 this
  obtain ⟨hlt, -⟩ := List.getElem?_eq_some_iff.1 hx.symm
  exact List.getElem?_append_left hlt

theorem lossy_inv_step {c0 s0 : Prog Unit} {L L' : LossyNet} {ctr str : List Ev} (h : LossyInv c0 s0 L ctr str)
    (e : LossyEv) (he : lossyStep L e = some L') : ∃ ctr' str', LossyInv c0 s0 L' ctr' str' := by
  obtain ⟨h1, h2, h3, h4, h5, h6, h7⟩ := h
  cases e with
  | client a =>
    simp only [lossyStep] at he
    unfold lossyClient at he
    split at he
    · rename_i k heq
      cases he
      rw [heq] at h1
      exact ⟨_, str, ⟨.snoc true h1, h2, by simp [sent, sentMsg, List.filterMap_cons, h3], h4, by simp only [h5, received, List.filterMap_append]; simp [List.filterMap_cons, recvd], h6, h7⟩⟩
    · rename_i k x heq
      split at he
      · cases he
        rw [heq] at h1
        exact ⟨_, str, ⟨.snoc (some x) h1, h2, by simp [sent, sentMsg, List.filterMap_cons, h3], h4, by simp only [h5, received, List.filterMap_append]; simp [List.filterMap_cons, recvd], h6, h7⟩⟩
      · cases he
    · rename_i m k heq
      cases he
      rw [heq] at h1
      exact ⟨_, str, ⟨.snoc true h1, h2, by simp [sent, sentMsg, List.filterMap_cons, h3], h4, by simp only [h5, received, List.filterMap_append]; simp [List.filterMap_cons, recvd],
        taken_append h6 m, h7⟩⟩
    · rename_i k i heq
      split at he
      · rename_i m hm
        cases he
        rw [heq] at h1
        exact ⟨_, str, ⟨.snoc (a := .recv) (RecvOut.msg m) h1, h2, by simp [sent, sentMsg, List.filterMap_cons, h3], h4, by
          simp only [List.map_append, List.map_cons, List.map_nil, h5, hm, received, List.filterMap_append]
          simp [List.filterMap_cons, recvd], h6, h7⟩⟩
      · cases he
    · rename_i k heq
      cases he
      rw [heq] at h1
      exact ⟨_, str, ⟨.snoc (a := .recv) RecvOut.fail h1, h2, by simp [sent, sentMsg, List.filterMap_cons, h3], h4, by simp only [h5, received, List.filterMap_append]; simp [List.filterMap_cons, recvd], h6, h7⟩⟩
    · cases he
  | server a =>
    simp only [lossyStep] at he
    unfold lossyServer at he
    split at he
    · rename_i k x heq
      split at he
      · cases he
        rw [heq] at h2
        exact ⟨ctr, _, ⟨h1, .snoc (some x) h2, h3, by simp [sent, sentMsg, List.filterMap_cons, h4], h5, by simp only [h6, received, List.filterMap_append]; simp [List.filterMap_cons, recvd],
          by simp [fwRequests, fwReq, List.filterMap_cons, h7]⟩⟩
      · cases he
    · rename_i k x heq
      split at he
      · cases he
        rw [heq] at h2
        exact ⟨ctr, _, ⟨h1, .snoc (some x) h2, h3, by simp [sent, sentMsg, List.filterMap_cons, h4], h5, by simp only [h6, received, List.filterMap_append]; simp [List.filterMap_cons, recvd],
          by simp [fwRequests, fwReq, List.filterMap_cons, h7]⟩⟩
      · cases he
    · rename_i m k heq
      cases he
      rw [heq] at h2
      exact ⟨ctr, _, ⟨h1, .snoc true h2, h3, by simp [sent, sentMsg, List.filterMap_cons, h4], taken_append h5 m,
        by simp only [h6, received, List.filterMap_append]; simp [List.filterMap_cons, recvd], by simp [fwRequests, fwReq, List.filterMap_cons, h7]⟩⟩
    · rename_i k i heq
      split at he
      · rename_i m hm
        cases he
        rw [heq] at h2
        exact ⟨ctr, _, ⟨h1, .snoc (a := .recv) (RecvOut.msg m) h2, h3, by simp [sent, sentMsg, List.filterMap_cons, h4], h5, by
          simp only [List.map_append, List.map_cons, List.map_nil, h6, hm, received, List.filterMap_append]
          simp [List.filterMap_cons, recvd], by simp [fwRequests, fwReq, List.filterMap_cons, h7]⟩⟩
      · cases he
    · rename_i k heq
      cases he
      rw [heq] at h2
      exact ⟨ctr, _, ⟨h1, .snoc (a := .recv) RecvOut.fail h2, h3, by simp [sent, sentMsg, List.filterMap_cons, h4], h5, by simp only [h6, received, List.filterMap_append]; simp [List.filterMap_cons, recvd],
        by simp [fwRequests, fwReq, List.filterMap_cons, h7]⟩⟩
    · rename_i k heq
      cases he
      rw [heq] at h2
      exact ⟨ctr, _, ⟨h1, .snoc true h2, h3, by simp [sent, sentMsg, List.filterMap_cons, h4], h5, by simp only [h6, received, List.filterMap_append]; simp [List.filterMap_cons, recvd],
        by simp [fwRequests, fwReq, List.filterMap_cons, h7]⟩⟩
    · rename_i m k heq
      cases he
      rw [heq] at h2
      exact ⟨ctr, _, ⟨h1, .snoc true h2, h3, by simp [sent, sentMsg, List.filterMap_cons, h4], h5, by simp only [h6, received, List.filterMap_append]; simp [List.filterMap_cons, recvd],
        by simp [fwRequests, fwReq, List.filterMap_cons, h7]⟩⟩
    · rename_i k m heq
      split at he
      · cases he
        rw [heq] at h2
        exact ⟨ctr, _, ⟨h1, .snoc (a := .fwRecv) (FwRecvOut.msg m) h2, h3, by simp [sent, sentMsg, List.filterMap_cons, h4], h5,
          by simp only [h6, received, List.filterMap_append]; simp [List.filterMap_cons, recvd], by simp [fwRequests, fwReq, List.filterMap_cons, h7]⟩⟩
      · cases he
    · cases he

theorem lossy_inv_run {c0 s0 : Prog Unit} (evs : List LossyEv) :
    ∀ {L L' : LossyNet} {ctr str : List Ev}, LossyInv c0 s0 L ctr str → lossyRun L evs = some L' →
      ∃ ctr' str', LossyInv c0 s0 L' ctr' str' := by
  induction evs with
  | nil => intro L L' ctr str h hr; cases hr; exact ⟨_, _, h⟩
  | cons e es ih =>
    intro L L' ctr str h hr
    simp only [lossyRun, Option.bind_eq_some_iff] at hr
    obtain ⟨L1, h1, h2⟩ := hr
    obtain ⟨_, _, hi⟩ := lossy_inv_step h e h1
    exact ih hi h2

theorem lossy_inv {mac : MacFn} {conf : Config} {peer : IpAddr} {u : UserId} {r : ResourceId} {key : Key}
    {evs : List LossyEv} {L : LossyNet} (hr : lossyRun (LossyNet.init mac conf peer u r key) evs = some L) :
    ∃ ctr str, LossyInv (knockSequence mac u r key) (session mac conf peer) L ctr str :=
  lossy_inv_run evs (ctr := []) (str := [])
    ⟨.nil, .nil, rfl, rfl, rfl, rfl, rfl⟩ hr

theorem taken_pair {t : List Nat} {l : List Message} {x y : Message} (h : t.map (fun i => l[i]?) = [x, y].map some) :
    ∃ i j, t = [i, j] ∧ l[i]? = some x ∧ l[j]? = some y := by
  cases t with
  | nil => simp at h
  | cons i t =>
    cases t with
    | nil => simp at h
    | cons j t =>
      cases t with
      | nil =>
        simp only [List.map_cons, List.map_nil, List.cons.injEq, and_true] at h
        exact ⟨i, j, rfl, h.1, h.2⟩
      | cons k t => simp at h

/-- Two different messages have been taken from two different places. -/
theorem taken_two {t : List Nat} {l : List Message} {x y : Message} (h : t.map (fun i => l[i]?) = [x, y].map some) (hne : x ≠ y) :
    t.Nodup := by
  obtain ⟨i, j, ht, h1, h2⟩ := taken_pair h
  have : i ≠ j := by
    intro hij
    subst hij
    exact hne (Option.some.inj (h1.symm.trans h2))
  simpa [ht] using this

theorem mem_filterMap_split {α β : Type} {f : α → Option β} {l : List α} {y : β} (h : y ∈ l.filterMap f) :
    ∃ a x b, l = a ++ x :: b ∧ f x = some y := by
  obtain ⟨x, hx, hy⟩ := List.mem_filterMap.1 h
  obtain ⟨a, b, hab⟩ := List.append_of_mem hx
  exact ⟨a, x, b, hab, hy⟩

/-- **C105** (what success means). Whatever is lost, delayed, reordered or delivered repeatedly: a client that ends with success
has seen no copy, nor has the session that served it, and that session has made exactly the one request to letmeinfwd
that the configuration grants. -/
theorem C105_success_exact (mac : MacFn) (conf : Config) (peer : IpAddr) (u : UserId) (r : ResourceId) (key : Key)
    (evs : List LossyEv) (L : LossyNet) (hr : lossyRun (LossyNet.init mac conf peer u r key) evs = some L)
    (hc : L.client = .ret (.ok ())) :
    NoCopies L ∧ ∃ res pt, Granted conf u r res ∧ opensTcp pt = res.tcp ∧ opensUdp pt = res.udp ∧
      L.reqs = [FwMessage.newOpen peer pt res.port] := by
  obtain ⟨ctr, str, h1, h2, h3, h4, h5, h6, h7⟩ := lossy_inv hr
  rw [hc] at h1
  obtain ⟨knock, ch, resp, ci, hkn, hch, hre, hci, hsent, hrecv, -⟩ := C13_success mac u r key ctr h1.done
  rw [hrecv] at h5
  have hst := h2.stopped
  have hmem : ci ∈ sent str := by
    rw [← h4]
    obtain ⟨i, j, -, -, hj⟩ := taken_pair h5
    exact List.mem_of_getElem? hj
  obtain ⟨pre, e, post, hs, he⟩ := mem_filterMap_split hmem
  obtain ⟨⟨req, reply, -, -, hreq⟩, ⟨kn, rs, k', n', hrv, hvk, -, hvr, -, -⟩, -⟩ :=
    C09_comein_after_ack mac conf peer str none hst pre e post hs ci he hci
  have hpost := C09_nothing_after_verdict mac conf peer str none hst pre e post hs ⟨ci, he, .inl hci⟩
  subst hpost
  have hnr : recvd e = none := by
    obtain ⟨a, x⟩ := e
    cases a <;> simp_all [sentMsg, recvd]
  have hnf : fwReq e = none := by
    obtain ⟨a, x⟩ := e
    cases a <;> simp_all [sentMsg, fwReq]
  have hrs : received str = [kn, rs] := by
    rw [hs]
    simp only [received, List.filterMap_append, List.filterMap_cons, hnr, List.filterMap_nil, List.append_nil]
    exact hrv
  have hfs : fwRequests str = [req] := by
    rw [hs]
    simp only [fwRequests, List.filterMap_append, List.filterMap_cons, hnf, List.filterMap_nil, List.append_nil]
    exact hreq
  rw [hrs] at h6
  refine ⟨⟨taken_two h5 ?_, taken_two h6 ?_⟩, ?_⟩
  · intro hh; subst hh; rw [hch] at hci; cases hci
  · intro hh; subst hh; have := hvk.op; rw [hvr.op] at this; cases this
  · have hm : req ∈ fwRequests str := by rw [hfs]; simp
    obtain ⟨pre2, e2, post2, hs2, he2⟩ := mem_filterMap_split hm
    obtain ⟨kn2, ch2, rs2, nonce, key2, res, pt, hfa, hreqeq, ht, hu, -, -⟩ :=
      C08_request_content mac conf peer str none hst pre2 e2 post2 hs2 req he2
    refine ⟨res, pt, ?_, ht, hu, by rw [h7, hfs, hreqeq]⟩
    have hkn2 : kn2 ∈ L.c2s := by
      have : kn2 ∈ received str := by
        have h0 : kn2 ∈ received pre2 := by rw [hfa.recvOnly]; simp
        rw [hs2]
        simp only [received, List.filterMap_append]
        exact List.mem_append_left _ h0
      rw [hrs] at this
      obtain ⟨i, j, -, hi, hj⟩ := taken_pair h6
      rcases List.mem_cons.1 this with h | h
      · exact h ▸ List.mem_of_getElem? hi
      · exact (List.mem_singleton.1 h) ▸ List.mem_of_getElem? hj
    rw [h3, hsent] at hkn2
    have hg := hfa.granted
    rcases List.mem_cons.1 hkn2 with h | h
    · rw [h, hkn.2.1, hkn.2.2.1] at hg; exact hg
    · rw [List.mem_singleton.1 h] at hfa
      have := hfa.knockOk.op
      rw [hre.1] at this
      cases this

/-! ## Without copies -/

/-- The corresponding state with queues. -/
def _root_.Letmein.LossyNet.joint (L : LossyNet) : Joint :=
  ⟨L.client, L.server, L.c2s.drop L.sTaken.length, L.s2c.drop L.cTaken.length, L.reqs⟩

/-- Everything has been taken in order. -/
structure InOrder (L : LossyNet) : Prop where
  c : L.cTaken = List.range L.cTaken.length
  s : L.sTaken = List.range L.sTaken.length
  cle : L.cTaken.length ≤ L.s2c.length
  sle : L.sTaken.length ≤ L.c2s.length

theorem phase_short {mac : MacFn} {peer : IpAddr} {u : UserId} {r : ResourceId} {key : Key} {res : Resource} {pt : PortType}
    {n : Nat} {J : Joint} (hp : Phase mac peer u r key res pt n J) : J.c2s.length ≤ 1 ∧ J.s2c.length ≤ 1 := by
  unfold Phase at hp
  split at hp <;> simp_all <;> grind

theorem lossy_grow {L L' : LossyNet} {e : LossyEv} (h : lossyStep L e = some L') :
    (∃ a, L'.cTaken = L.cTaken ++ a) ∧ ∃ b, L'.sTaken = L.sTaken ++ b := by
  have triv : (∃ a, L.cTaken = L.cTaken ++ a) ∧ ∃ b, L.sTaken = L.sTaken ++ b := ⟨⟨[], by simp⟩, [], by simp⟩
  cases e with
  | client a =>
    simp only [lossyStep] at h
    unfold lossyClient at h
    (repeat' split at h) <;> first | (cases h; done) | (cases h; exact triv) | (cases h; exact ⟨⟨_, rfl⟩, triv.2⟩)
  | server a =>
    simp only [lossyStep] at h
    unfold lossyServer at h
    (repeat' split at h) <;> first | (cases h; done) | (cases h; exact triv) | (cases h; exact ⟨triv.1, _, rfl⟩)

theorem lossyRun_grow (evs : List LossyEv) :
    ∀ {L L' : LossyNet}, lossyRun L evs = some L' → NoCopies L' → NoCopies L := by
  induction evs with
  | nil => intro L L' h hn; cases h; exact hn
  | cons e es ih =>
    intro L L' h hn
    simp only [lossyRun, Option.bind_eq_some_iff] at h
    obtain ⟨L1, h1, h2⟩ := h
    obtain ⟨⟨a, ha⟩, b, hb⟩ := lossy_grow h1
    obtain ⟨n1, n2⟩ := ih h2 hn
    rw [ha] at n1
    rw [hb] at n2
    exact ⟨(List.nodup_append.1 n1).1, (List.nodup_append.1 n2).1⟩

/-- A fresh element of a list of which all but one have been taken is that one. -/
theorem fresh_is_next {t : List Nat} {l : List Message} {i : Nat} {m : Message} (ht : t = List.range t.length)
    (hl : (l.drop t.length).length ≤ 1) (hi : l[i]? = some m) (hn : (t ++ [i]).Nodup) :
    i = t.length ∧ l.drop t.length = [m] := by
  obtain ⟨hlt, hm⟩ := List.getElem?_eq_some_iff.1 hi
  have hni : i ∉ t := by
    intro h
    exact (List.nodup_append.1 hn).2.2 i h i (by simp) rfl
  have hge : t.length ≤ i := by
    apply Nat.le_of_not_lt
    intro h
    apply hni
    rw [ht]
    exact List.mem_range.2 h
  rw [List.length_drop] at hl
  have : i = t.length := by omega
  refine ⟨this, ?_⟩
  subst this
  rw [List.drop_eq_getElem_cons hlt, hm, List.drop_of_length_le (by omega)]

theorem range_snoc {t : List Nat} (ht : t = List.range t.length) : t ++ [t.length] = List.range (t ++ [t.length]).length := by
  rw [List.length_append, List.length_singleton, List.range_succ, ← ht]

theorem drop_snoc {l : List Message} {n : Nat} (h : n ≤ l.length) (m : Message) : (l ++ [m]).drop n = l.drop n ++ [m] :=
  List.drop_append_of_le_length h

theorem lossy_sim {mac : MacFn} {peer : IpAddr} {u : UserId} {r : ResourceId} {key : Key} {res : Resource} {pt : PortType}
    {n : Nat} {L L' : LossyNet} {e : LossyEv} (hp : Phase mac peer u r key res pt n L.joint) (ho : InOrder L)
    (he : lossyStep L e = some L') (hn : NoCopies L') (hc : e ≠ .client .timeout) (hs : e ≠ .server .timeout) :
    JStep L.joint L'.joint ∧ InOrder L' := by
  obtain ⟨p1, p2⟩ := phase_short hp
  obtain ⟨o1, o2, o3, o4⟩ := ho
  obtain ⟨C, S, A, B, t, t', q⟩ := L
  simp only [LossyNet.joint] at *
  cases e with
  | client a =>
    simp only [lossyStep] at he
    unfold lossyClient at he
    split at he
    · rename_i k heq; cases heq; cases he
      exact ⟨.cConnect, o1, o2, o3, o4⟩
    · rename_i k x heq; cases heq
      split at he
      · cases he; exact ⟨.cRand _ ‹_›, o1, o2, o3, o4⟩
      · cases he
    · rename_i m k heq; cases heq; cases he
      refine ⟨?_, o1, o2, o3, by simp; omega⟩
      dsimp only
      rw [drop_snoc o4]
      exact .cSend
    · rename_i k i heq; cases heq
      dsimp only at he
      split at he
      · rename_i m hm
        cases he
        obtain ⟨hi, hd⟩ := fresh_is_next o1 p2 hm hn.1
        subst hi
        obtain ⟨hlt, -⟩ := List.getElem?_eq_some_iff.1 hm
        refine ⟨?_, range_snoc o1, o2, by simp; omega, o4⟩
        dsimp only
        rw [hd, List.length_append, List.length_singleton, ← List.drop_drop, hd]
        exact .cRecv
      · cases he
    · exact absurd rfl hc
    · cases he
  | server a =>
    simp only [lossyStep] at he
    unfold lossyServer at he
    split at he
    · rename_i k x heq; cases heq
      split at he
      · cases he; exact ⟨.sRand8 _ ‹_›, o1, o2, o3, o4⟩
      · cases he
    · rename_i k x heq; cases heq
      split at he
      · cases he; exact ⟨.sRand32 _ ‹_›, o1, o2, o3, o4⟩
      · cases he
    · rename_i m k heq; cases heq; cases he
      refine ⟨?_, o1, o2, by simp; omega, o4⟩
      dsimp only
      rw [drop_snoc o3]
      exact .sSend
    · rename_i k i heq; cases heq
      dsimp only at he
      split at he
      · rename_i m hm
        cases he
        obtain ⟨hi, hd⟩ := fresh_is_next o2 p1 hm hn.2
        subst hi
        obtain ⟨hlt, -⟩ := List.getElem?_eq_some_iff.1 hm
        refine ⟨?_, o1, range_snoc o2, o3, by simp; omega⟩
        dsimp only
        rw [hd, List.length_append, List.length_singleton, ← List.drop_drop, hd]
        exact .sRecv
      · cases he
    · exact absurd rfl hs
    · rename_i k heq; cases heq; cases he
      exact ⟨.sFwConnect, o1, o2, o3, o4⟩
    · rename_i m k heq; cases heq; cases he
      exact ⟨.sFwSend, o1, o2, o3, o4⟩
    · rename_i k m heq; cases heq
      split at he
      · cases he; exact ⟨.sFwRecv _ ‹_›, o1, o2, o3, o4⟩
      · cases he
    · cases he

theorem lossy_sim_run {mac : MacFn} {peer : IpAddr} {u : UserId} {r : ResourceId} {key : Key} {res : Resource} {pt : PortType}
    (evs : List LossyEv) : ∀ {n : Nat} {L L' : LossyNet}, Phase mac peer u r key res pt n L.joint → InOrder L →
      lossyRun L evs = some L' → NoCopies L' → NeverTimesOut evs →
      Phase mac peer u r key res pt (n + evs.length) L'.joint ∧ InOrder L' := by
  induction evs with
  | nil => intro n L L' hp ho hr _ _; cases hr; exact ⟨hp, ho⟩
  | cons e es ih =>
    intro n L L' hp ho hr hn ht
    simp only [lossyRun, Option.bind_eq_some_iff] at hr
    obtain ⟨L1, h1, h2⟩ := hr
    have hn1 := lossyRun_grow es h2 hn
    obtain ⟨t1, t2⟩ := ht
    simp only [List.mem_cons, not_or] at t1 t2
    obtain ⟨hj, ho1⟩ := lossy_sim hp ho h1 hn1 (fun h => t1.1 h.symm) (fun h => t2.1 h.symm)
    have := ih (phase_step mac peer u r key res pt hp hj) ho1 h2 hn ⟨t1.2, t2.2⟩
    rw [Nat.add_right_comm] at this
    exact this

theorem nodup_snoc_range {t : List Nat} (ht : t = List.range t.length) : (t ++ [t.length]).Nodup := by
  rw [range_snoc ht]
  exact List.nodup_range

theorem lossy_progress {L : LossyNet} {J' : Joint} (ho : InOrder L) (hj : JStep L.joint J') :
    ∃ e L', lossyStep L e = some L' ∧ NoCopies L' ∧ e ≠ .client .timeout ∧ e ≠ .server .timeout := by
  obtain ⟨o1, o2, o3, o4⟩ := ho
  obtain ⟨C, S, A, B, t, t', q⟩ := L
  simp only [LossyNet.joint] at *
  have hn : t.Nodup ∧ t'.Nodup := ⟨by rw [o1]; exact List.nodup_range, by rw [o2]; exact List.nodup_range⟩
  generalize ha : A.drop t'.length = a at hj
  generalize hb : B.drop t.length = b at hj
  have next : ∀ {l : List Message} {n : Nat} {m : Message} {x : List Message}, l.drop n = m :: x → l[n]? = some m := by
    intro l n m x h
    have : (l.drop n)[0]? = some m := by rw [h]; rfl
    simpa using this
  cases hj with
  | cConnect => exact ⟨.client .go, _, rfl, hn, by simp, by simp⟩
  | cRand x hx =>
    refine ⟨.client (.rand8 x), _, (by simp only [lossyStep, lossyClient, hx, if_true]; rfl), ?_, by simp, by simp⟩
    exact hn
  | cSend => exact ⟨.client .go, _, rfl, hn, by simp, by simp⟩
  | cRecv =>
    have hm := next hb
    refine ⟨.client (.take t.length), _, (by simp only [lossyStep, lossyClient, hm]; rfl), ?_, by simp, by simp⟩
    exact ⟨nodup_snoc_range o1, hn.2⟩
  | sRand8 x hx =>
    refine ⟨.server (.rand8 x), _, (by simp only [lossyStep, lossyServer, hx, if_true]; rfl), ?_, by simp, by simp⟩
    exact hn
  | sRand32 x hx =>
    refine ⟨.server (.rand32 x), _, (by simp only [lossyStep, lossyServer, hx, if_true]; rfl), ?_, by simp, by simp⟩
    exact hn
  | sSend => exact ⟨.server .go, _, rfl, hn, by simp, by simp⟩
  | sRecv =>
    have hm := next ha
    refine ⟨.server (.take t'.length), _, (by simp only [lossyStep, lossyServer, hm]; rfl), ?_, by simp, by simp⟩
    exact ⟨hn.1, nodup_snoc_range o2⟩
  | sFwConnect => exact ⟨.server .go, _, rfl, hn, by simp, by simp⟩
  | sFwSend => exact ⟨.server .go, _, rfl, hn, by simp, by simp⟩
  | sFwRecv x hx =>
    refine ⟨.server (.fw x), _, (by simp only [lossyStep, lossyServer, hx, if_true]; rfl), ?_, by simp, by simp⟩
    exact hn

/-- **C105** (the part that holds). The situation of C14, over UDP with delays and reordering. As long as no datagram is taken
twice and nothing times out, the exchange takes at most 17 steps, can always go on without copy or timeout, and ends with
success on both sides and the one request that the configuration grants.

Missing for the full property: the same with datagrams delivered twice. That is false (`C105_negation`). -/
theorem C105_no_copies_partial (mac : MacFn) (conf : Config) (peer : IpAddr) (u : UserId) (r : ResourceId) (key : Key)
    (res : Resource) (hk : conf.key u = some key) (hg : Granted conf u r res) (hp : res.tcp = true ∨ res.udp = true)
    (evs : List LossyEv) (L : LossyNet) (hr : lossyRun (LossyNet.init mac conf peer u r key) evs = some L)
    (ht : NeverTimesOut evs) (hn : NoCopies L) :
    evs.length ≤ 17 ∧
    ((∃ e L', lossyStep L e = some L' ∧ NoCopies L' ∧ NeverTimesOut [e]) ∨
      (L.client = .ret (.ok ()) ∧ L.server = .ret (.ok ()) ∧
        ∃ pt, opensTcp pt = res.tcp ∧ opensUdp pt = res.udp ∧ L.reqs = [FwMessage.newOpen peer pt res.port])) := by
  obtain ⟨pt, hpt⟩ : ∃ pt, res.portType = .ok pt := by
    unfold Resource.portType
    cases h1 : res.tcp <;> cases h2 : res.udp <;> simp_all
  have hu : res.containsUser u = true := by
    unfold Resource.containsUser
    rcases hg.allowed with h | h
    · simp [h]
    · simp [h]
  have h0 : Phase mac peer u r key res pt 0 (LossyNet.init mac conf peer u r key).joint :=
    ⟨client_CP0 .., server_SP0 mac conf peer u r key res pt hk hg.configured hu hg.notControl hpt, rfl, rfl, rfl⟩
  obtain ⟨hph, ho⟩ := lossy_sim_run evs h0 ⟨rfl, rfl, Nat.le_refl _, Nat.le_refl _⟩ hr hn ht
  rw [Nat.zero_add] at hph
  have hle := phase_le mac peer u r key res pt hph
  refine ⟨hle, ?_⟩
  by_cases h17 : evs.length = 17
  · rw [h17] at hph
    obtain ⟨h1, h2, -, -, h5⟩ := hph
    obtain ⟨p1, p2⟩ := portType_spec hpt
    exact .inr ⟨h1, h2, pt, p1, p2, h5⟩
  · obtain ⟨J', hj⟩ := phase_progress mac peer u r key res pt hph (by omega) ⟨goodSalt, by decide +kernel⟩
      ⟨goodNonce, by decide +kernel⟩ ⟨FwMessage.newAck, rfl⟩
    obtain ⟨e, L', h1, h2, h3, h4⟩ := lossy_progress ho hj
    refine .inl ⟨e, L', h1, h2, ?_, ?_⟩
    · intro h; exact h3 (List.mem_singleton.1 h).symm
    · intro h; exact h4 (List.mem_singleton.1 h).symm

theorem phase_client_ret {mac : MacFn} {peer : IpAddr} {u : UserId} {r : ResourceId} {key : Key} {res : Resource} {pt : PortType}
    {n : Nat} {J : Joint} {x : R Unit} (hp : Phase mac peer u r key res pt n J) (hx : J.client = .ret x) : x = .ok () := by
  unfold Phase at hp
  split at hp <;> first
    | (exact hp.elim)
    | (obtain ⟨hc, -⟩ := hp; first | (obtain ⟨k, hc, -⟩ := hc; rw [hx] at hc; cases hc; done) | (unfold CP7 at hc; rw [hx] at hc; injection hc))
    | (obtain ⟨_, hc, -⟩ := hp; obtain ⟨k, hc, -⟩ := hc; rw [hx] at hc; cases hc; done)
    | (obtain ⟨_, _, hc, -⟩ := hp; obtain ⟨k, hc, -⟩ := hc; rw [hx] at hc; cases hc; done)

/-- **C105** (exactly when). In the situation of C14, if nothing times out, a client that has come to its end has
succeeded if and only if neither it nor the session has taken a datagram twice. -/
theorem C105_succeeds_iff (mac : MacFn) (conf : Config) (peer : IpAddr) (u : UserId) (r : ResourceId) (key : Key)
    (res : Resource) (hk : conf.key u = some key) (hg : Granted conf u r res) (hp : res.tcp = true ∨ res.udp = true)
    (evs : List LossyEv) (L : LossyNet) (hr : lossyRun (LossyNet.init mac conf peer u r key) evs = some L)
    (ht : NeverTimesOut evs) (x : R Unit) (hx : L.client = .ret x) : x = .ok () ↔ NoCopies L := by
  constructor
  · intro h
    subst h
    exact (C105_success_exact mac conf peer u r key evs L hr hx).1
  · intro hn
    obtain ⟨pt, hpt⟩ : ∃ pt, res.portType = .ok pt := by
      unfold Resource.portType
      cases h1 : res.tcp <;> cases h2 : res.udp <;> simp_all
    have hu : res.containsUser u = true := by
      unfold Resource.containsUser
      rcases hg.allowed with h | h
      · simp [h]
      · simp [h]
    have h0 : Phase mac peer u r key res pt 0 (LossyNet.init mac conf peer u r key).joint :=
      ⟨client_CP0 .., server_SP0 mac conf peer u r key res pt hk hg.configured hu hg.notControl hpt, rfl, rfl, rfl⟩
    obtain ⟨hph, -⟩ := lossy_sim_run evs h0 ⟨rfl, rfl, Nat.le_refl _, Nat.le_refl _⟩ hr hn ht
    exact phase_client_ret hph hx

/-! ## Copies -/

theorem endedWith_ret {p : Prog Unit} {x : R Unit} (h : endedWith p = some x) : p = .ret x := by
  cases p with
  | ret y => exact congrArg Prog.ret (Option.some.inj h)
  | act a k => cases h

/-- Up to the Challenge. -/
def lossyStart : List LossyEv :=
  [.client .go, .client (.rand8 goodSalt), .client .go, .server (.take 0), .server (.rand8 goodSalt), .server (.rand32 goodNonce),
    .server .go]

/-- The session takes the Knock once more in place of the Response. -/
def lossyKnockTwice : List LossyEv :=
  lossyStart ++ [.client (.take 0), .client (.rand8 goodSalt), .client .go, .server (.take 0), .server (.rand8 goodSalt),
    .server .go, .client (.take 1)]

/-- The client takes the Challenge once more in place of Come-In. -/
def lossyChallengeTwice : List LossyEv :=
  lossyStart ++ [.client (.take 0), .client (.rand8 goodSalt), .client .go, .server (.take 1), .server .go, .server .go,
    .server (.fw FwMessage.newAck), .server (.rand8 goodSalt), .server .go, .client (.take 0)]

/-- The exchange as it should be. -/
def lossyGood : List LossyEv :=
  lossyStart ++ [.client (.take 0), .client (.rand8 goodSalt), .client .go, .server (.take 1), .server .go, .server .go,
    .server (.fw FwMessage.newAck), .server (.rand8 goodSalt), .server .go, .client (.take 1)]

/-- Start of the example. -/
def lossyExample : LossyNet :=
  LossyNet.init toyMac exampleConf examplePeer ⟨0xA423DDA7⟩ ⟨0xBC5D8077⟩ (Arr.replicate 32 7)

example : ((lossyRun lossyExample lossyGood).map fun L => (endedWith L.client, endedWith L.server, L.reqs.length)) =
    some (some (.ok ()), some (.ok ()), 1) := by
  decide +kernel

theorem lossy_knock_twice : ((lossyRun lossyExample lossyKnockTwice).map fun L =>
    (endedWith L.client, endedWith L.server, L.reqs.length, L.cTaken, L.sTaken)) =
    some (some .err, some .err, 0, [0, 1], [0, 0]) := by
  decide +kernel

theorem lossy_challenge_twice : ((lossyRun lossyExample lossyChallengeTwice).map fun L =>
    (endedWith L.client, endedWith L.server, L.reqs.length, L.cTaken, L.sTaken)) =
    some (some .err, some (.ok ()), 1, [0, 0], [0, 1]) := by
  decide +kernel

/-- **C105** (negation of the full property). In the situation of C14 with nothing lost: a Knock delivered twice makes the session
refuse and the client fail, and the port stays closed; a Challenge delivered twice makes the client fail, although
the session has ended well and the port has been opened. -/
theorem C105_negation : ∃ (mac : MacFn) (conf : Config) (peer : IpAddr) (u : UserId) (r : ResourceId) (key : Key) (res : Resource),
    conf.key u = some key ∧ Granted conf u r res ∧ (res.tcp = true ∨ res.udp = true) ∧
    (∃ evs L, lossyRun (LossyNet.init mac conf peer u r key) evs = some L ∧ NeverTimesOut evs ∧ L.cTaken.Nodup ∧
      L.client = .ret .err ∧ L.server = .ret .err ∧ L.reqs = []) ∧
    (∃ evs L, lossyRun (LossyNet.init mac conf peer u r key) evs = some L ∧ NeverTimesOut evs ∧ L.sTaken.Nodup ∧
      L.client = .ret .err ∧ L.server = .ret (.ok ()) ∧ L.reqs.length = 1) := by
  refine ⟨toyMac, exampleConf, examplePeer, ⟨0xA423DDA7⟩, ⟨0xBC5D8077⟩, Arr.replicate 32 7, _, by decide +kernel,
    ⟨rfl, by decide +kernel, by decide +kernel⟩, by decide +kernel, ?_, ?_⟩
  · have h := lossy_knock_twice
    obtain ⟨L, hL, h⟩ := Option.map_eq_some_iff.1 h
    simp only [Prod.mk.injEq] at h
    exact ⟨lossyKnockTwice, L, hL, by simp only [NeverTimesOut]; decide +kernel, by rw [h.2.2.2.1]; decide, endedWith_ret h.1,
      endedWith_ret h.2.1, List.length_eq_zero_iff.1 h.2.2.1⟩
  · have h := lossy_challenge_twice
    obtain ⟨L, hL, h⟩ := Option.map_eq_some_iff.1 h
    simp only [Prod.mk.injEq] at h
    exact ⟨lossyChallengeTwice, L, hL, by simp only [NeverTimesOut]; decide +kernel, by rw [h.2.2.2.2]; decide, endedWith_ret h.1,
      endedWith_ret h.2.1, h.2.2.1⟩

/-- The other theorems apply to the good run of the example. -/
example : NeverTimesOut lossyGood ∧ ((lossyRun lossyExample lossyGood).map fun L => (L.cTaken, L.sTaken)) =
    some ([0, 1], [0, 1]) := by
  refine ⟨?_, by decide +kernel⟩
  simp only [NeverTimesOut]
  decide +kernel

end Letmein.Props
