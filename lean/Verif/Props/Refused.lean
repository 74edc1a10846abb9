import Verif.Props.Trio

/-!
# Property C117: a knock that failed has opened nothing
-/

namespace Letmein.Props

open Letmein Prog Spec

/-- What happens to letmeinfwd apart from the handling of the session's request. -/
def apartOps (evs : List TrioEv) : List FwdOp := evs.filterMap (fun | .fwd op false => some op | _ => none)

/-- letmeinfwd has acknowledged a request of the session. -/
def Acknowledged (fconf : Config) (s0 : FwdState) (evs : List TrioEv) : Prop :=
  ∃ a m now ok b reply, evs = a ++ .fwd (.request (.msg m) now ok) true :: b ∧
    (fwdStep fconf (fwdRun fconf s0 (fwdOps a)).2 (.request (.msg m) now ok)).1 = some reply ∧ reply.operation = .Ack

/-- The session has got an acknowledgement. -/
def GotAck (evs : List TrioEv) : Prop := ∃ reply ∈ fwReplies (serverEvs evs), reply.operation = .Ack

/-- The client has got a Go-Away. -/
def GotGoAway (evs : List TrioEv) : Prop := ∃ m ∈ received (clientEvs evs), m.operation = .GoAway

theorem openPort_ok_or_same (conf : Config) (fw : NftFirewall) (k : Kernel) (now : Nat) (addr : IpAddr) (port : LeasePort) (ok : Bool) :
    (fw.openPort conf k now addr port ok).1 = .ok () ∨ (fw.openPort conf k now addr port ok).2 = (fw, k) := by
  unfold NftFirewall.openPort
  split
  · exact .inr rfl
  · simp only
    split
    · exact .inl rfl
    · cases Lease.new conf now addr port with
      | err => exact .inr rfl
      | panic => exact .inr rfl
      | ok lease =>
        have hb : (addLease conf lease k ok).1 = .ok () ∨ (addLease conf lease k ok).2 = k := by
          unfold addLease
          cases genAddLeaseCmds conf lease with
          | err => exact .inr rfl
          | panic => exact .inr rfl
          | ok cs =>
            simp only [applyBatch]
            split
            · split
              · exact .inl rfl
              · exact .inr rfl
            · exact .inr rfl
        simp only
        generalize addLease conf lease k ok = x at hb
        obtain ⟨r, k'⟩ := x
        cases r with
        | ok u => exact .inl rfl
        | err =>
          rcases hb with h | h
          · cases h
          · exact .inr (by rw [← h])
        | panic =>
          rcases hb with h | h
          · cases h
          · exact .inr (by rw [← h])

theorem handleMessage_ack_or_same (conf : Config) (fw : NftFirewall) (k : Kernel) (rx : FwRecvOut) (now : Nat) (ok : Bool) :
    ((handleMessage conf fw k rx now ok).1 = .ok () ∧ (handleMessage conf fw k rx now ok).2.1 = some FwMessage.newAck) ∨
      (handleMessage conf fw k rx now ok).2.2 = (fw, k) := by
  unfold handleMessage
  cases fwdDecide conf rx with
  | silent => exact .inr rfl
  | nack => exact .inr rfl
  | openPort addr port =>
    simp only
    have := openPort_ok_or_same conf fw k now addr port ok
    generalize fw.openPort conf k now addr port ok = x at this
    obtain ⟨r, fw', k'⟩ := x
    cases r with
    | ok u => exact .inl ⟨rfl, rfl⟩
    | err =>
      rcases this with h | h
      · cases h
      · exact .inr h
    | panic =>
      rcases this with h | h
      · cases h
      · exact .inr h

/-- A request that is not acknowledged changes nothing. -/
theorem unacknowledged_step (conf : Config) (s : FwdState) (rx : FwRecvOut) (now : Nat) (ok : Bool)
    (hc : (fwdStep conf s (.request rx now ok)).2.phase ≠ .crashed)
    (h : ∀ r, (fwdStep conf s (.request rx now ok)).1 = some r → r.operation ≠ .Ack) : (fwdStep conf s (.request rx now ok)).2 = s := by
  have hm := handleMessage_ack_or_same conf s.fw s.kernel rx now ok
  obtain ⟨phase, fw, kernel⟩ := s
  cases phase with
  | crashed => rfl
  | stopped => rfl
  | running | stopping =>
    simp only [fwdStep] at hc h hm ⊢
    generalize handleMessage conf fw kernel rx now ok = x at *
    obtain ⟨r, reply, fw', k'⟩ := x
    cases r with
    | panic => exact absurd rfl hc
    | ok u =>
      rcases hm with ⟨-, h2⟩ | h2
      · exact absurd rfl (h _ h2)
      · cases h2; rfl
    | err =>
      rcases hm with ⟨h1, -⟩ | h2
      · cases h1
      · cases h2; rfl

theorem apartOps_append (a b : List TrioEv) : apartOps (a ++ b) = apartOps a ++ apartOps b := by simp only [apartOps, List.filterMap_append]

theorem fwdOps_append (a b : List TrioEv) : fwdOps (a ++ b) = fwdOps a ++ fwdOps b := by simp only [fwdOps, List.filterMap_append]

theorem fwdRun_two (conf : Config) (s : FwdState) (a b : List FwdOp) : (fwdRun conf s (a ++ b)).2 = (fwdRun conf (fwdRun conf s a).2 b).2 := by rw [fwdRun_append]

/-- As long as letmeinfwd acknowledges nothing to the session, the session's requests have no effect. -/
theorem unacknowledged_run (fconf : Config) (s0 : FwdState) (hc : ∀ ops, (fwdRun fconf s0 ops).2.phase ≠ .crashed) :
    ∀ (n : Nat) (evs : List TrioEv) (L : Links), evs.length = n → linkRun fconf ⟨[], [], [], [], s0⟩ evs = some L → ¬ Acknowledged fconf s0 evs →
      (fwdRun fconf s0 (fwdOps evs)).2 = (fwdRun fconf s0 (apartOps evs)).2
  | 0, evs, L, hn, _, _ => by rw [List.length_eq_zero_iff.1 hn]; rfl
  | n + 1, evs, L, hn, hl, hna => by
    have hne : evs ≠ [] := by intro h; rw [h] at hn; cases hn
    obtain ⟨init, e, rfl⟩ : ∃ init e, evs = init ++ [e] := ⟨evs.dropLast, evs.getLast hne, (List.dropLast_concat_getLast hne).symm⟩
    obtain ⟨M, hM, hM2⟩ := linkRun_append hl
    have ih := unacknowledged_run fconf s0 hc n init M (by simpa using hn) hM (by
      rintro ⟨a, m, now, ok, b, reply, he, h⟩
      exact hna ⟨a, m, now, ok, b ++ [e], reply, by rw [he]; simp, h⟩)
    rw [fwdOps_append, apartOps_append, fwdRun_two, fwdRun_two, ← ih]
    cases e with
    | client e d => rfl
    | server e d => rfl
    | fwd op own =>
      cases own with
      | false => rfl
      | true =>
        change (fwdRun fconf (fwdRun fconf s0 (fwdOps init)).2 [op]).2 = (fwdRun fconf s0 (fwdOps init)).2
        have hop : ∃ m now ok, op = .request (.msg m) now ok := by
          cases op with
          | request rx now ok =>
            cases rx with
            | msg m => exact ⟨m, now, ok, rfl⟩
            | _ => simp [linkRun, linkStep] at hM2
          | _ => simp [linkRun, linkStep] at hM2
        obtain ⟨m, now, ok, rfl⟩ := hop
        refine unacknowledged_step fconf _ _ now ok ?_ ?_
        · have := hc (fwdOps init ++ [.request (.msg m) now ok])
          rw [fwdRun_two] at this
          exact this
        · intro r hr ha
          exact hna ⟨init, m, now, ok, [], r, rfl, hr, ha⟩

attribute [local simp] hist1 hist2 hist3 hist4 received sent fwRequests recvd sentMsg fwReq isFw challengeMsg goAwayMsg fwReplies Message.new

/-- A session that has got an acknowledgement does not send Go-Away, and nothing follows a Go-Away. -/
theorem session_goaway (mac : MacFn) (conf : Config) (peer : IpAddr) (tr : List Ev) (o : Option (R Unit)) (ht : (session mac conf peer).Trace tr o)
    (hg : ∃ m ∈ sent tr, m.operation = .GoAway) : ∀ r ∈ fwReplies tr, r.operation ≠ .Ack := by
  have ob : SessionObl mac conf peer
      (fun h e => .GoAway ∉ (sent h).map (·.operation) ∧ ∀ m, sentMsg e = some m → m.operation = .GoAway → .Ack ∉ (fwReplies h).map (·.operation))
      (fun _ _ => True) := by
    constructor <;> intros <;>
      first
        | trivial
        | (refine reject_ok ?_ ?_ ?_ ?_ ?_ <;> intros <;> first | trivial | (simp; done))
        | (refine ⟨⟨?_, ?_⟩, ?_⟩ <;> intros <;> first | trivial | (simp; done) | (simp_all; done))
        | (refine ⟨?_, ?_⟩ <;> intros <;> first | trivial | (simp; done) | (simp_all; done) | (subst_vars; simp_all; done))
        | skip
    case fwRecvFail =>
      rename_i m key res st nn resp pt x _ _ hx
      cases x with
      | msg reply =>
        have := hx reply rfl
        refine reject_ok ?_ ?_ ?_ ?_ ?_ <;> intros <;> first | trivial | (simp; exact fun h => this h.symm) | (simp; done)
      | _ => refine reject_ok ?_ ?_ ?_ ?_ ?_ <;> intros <;> first | trivial | (simp; done)
  obtain ⟨m, hm, hop⟩ := hg
  obtain ⟨e, he, hes⟩ := List.mem_filterMap.1 hm
  obtain ⟨pre, post, hsplit⟩ := List.append_of_mem he
  have h1 := ((session_ok ob).sound ht).1
  have h2 := h1 pre e post (by simpa using hsplit)
  have hpost : post = [] := by
    cases post with
    | nil => rfl
    | cons e' post =>
      have := (h1 (pre ++ [e]) e' post (by simpa using hsplit)).1
      refine absurd (List.mem_map.2 ⟨m, ?_, hop⟩) this
      simp only [List.nil_append, sent, List.filterMap_append, List.filterMap_cons, hes, List.mem_append]
      exact .inr (by simp)
  subst hpost
  rw [hsplit]
  intro r hr
  simp only [fwReplies, List.filterMap_append, List.mem_append] at hr
  rcases hr with hr | hr
  · exact fun h => h2.2 m hes hop (List.mem_map.2 ⟨r, hr, h⟩)
  · obtain ⟨e', he', hr'⟩ := List.mem_filterMap.1 hr
    simp only [List.mem_singleton] at he'
    subst he'
    obtain ⟨act, ans⟩ := e'
    cases act <;> simp at hes hr'

/-- **C117** (nothing without an acknowledgement). Whatever happens in an exchange, and whatever the client is told: if letmeinfwd has not acknowledged a request of the
session, then letmeinfwd and the firewall are as if the knock had not taken place. -/
theorem C117_no_effect (mac : MacFn) (sconf fconf : Config) (peer : IpAddr) (u : UserId) (r : ResourceId) (key : Key) (k0 : Kernel) (startOk : Bool) (sI : FwdState)
    (hstart : fwdStart fconf k0 startOk = some sI) (before : List FwdOp) (evs : List TrioEv) (o : Option (R Unit)) (L : Links)
    (hrun : TrioRun mac sconf fconf peer u r key (fwdRun fconf sI before).2 evs o L) (hno : ¬ Acknowledged fconf (fwdRun fconf sI before).2 evs) :
    L.fwd = (fwdRun fconf sI (before ++ apartOps evs)).2 := by
  rw [linkRun_fwd hrun.links, fwdRun_two]
  refine unacknowledged_run fconf _ (fun ops => ?_) _ evs L rfl hrun.links hno
  rw [← fwdRun_two]
  exact C49_no_crash fconf k0 startOk sI hstart _

/-- **C117**, for a knock that is refused with Go-Away. On a connection on which nothing is modified or invented, the client gets Go-Away. Then letmeinfwd and the
firewall are as if the knock had not taken place — unless letmeinfwd has acknowledged the request and the session has not got this acknowledgement. Missing: this
case (`C117_negation`), and failures without a Go-Away (`C117_negation_lost`). -/
theorem C117_refused_partial (mac : MacFn) (sconf fconf : Config) (peer : IpAddr) (u : UserId) (r : ResourceId) (key : Key) (k0 : Kernel) (startOk : Bool) (sI : FwdState)
    (hstart : fwdStart fconf k0 startOk = some sI) (before : List FwdOp) (evs : List TrioEv) (o : Option (R Unit)) (L : Links)
    (hrun : TrioRun mac sconf fconf peer u r key (fwdRun fconf sI before).2 evs o L) (hg : GotGoAway evs) :
    ¬ GotAck evs ∧ (L.fwd = (fwdRun fconf sI (before ++ apartOps evs)).2 ∨ Acknowledged fconf (fwdRun fconf sI before).2 evs) := by
  constructor
  · obtain ⟨m, hm, hop⟩ := hg
    obtain ⟨o', hserv⟩ := hrun.server
    have inv := linkInv_run (linkInv_init fconf _) hrun.links
    simp only [List.nil_append] at inv
    rintro ⟨reply, hr, ha⟩
    exact session_goaway mac sconf peer _ o' hserv ⟨m, inv.crecv m hm, hop⟩ reply hr ha
  · by_cases hno : Acknowledged fconf (fwdRun fconf sI before).2 evs
    · exact .inr hno
    · exact .inl (C117_no_effect mac sconf fconf peer u r key k0 startOk sI hstart before evs o L hrun hno)

/-! ### Concrete runs -/

/-- The Go-Away of the example session. -/
def trioGoAway : Message := Message.new .GoAway ⟨0xA423DDA7⟩ ⟨0xBC5D8077⟩ goodSalt

/-- A knock in which letmeinfwd's answer does not reach the session; the session refuses the client. -/
def lostAckEvs (ok : Bool) : List TrioEv :=
  [.client ⟨.connect, true⟩ true, .client ⟨.rand8, some goodSalt⟩ true, .client ⟨.send exampleKnock, true⟩ true,
   .server ⟨.recv, .msg exampleKnock⟩ true, .server ⟨.rand8, some goodSalt⟩ true, .server ⟨.rand32, some goodNonce⟩ true,
   .server ⟨.send trioChallenge, true⟩ true, .client ⟨.recv, .msg trioChallenge⟩ true, .client ⟨.rand8, some goodSalt⟩ true,
   .client ⟨.send exampleResponse, true⟩ true, .server ⟨.recv, .msg exampleResponse⟩ true, .server ⟨.fwConnect, true⟩ true,
   .server ⟨.fwSend (FwMessage.newOpen examplePeer .Tcp 22), true⟩ true,
   .fwd (.request (.msg (FwMessage.newOpen examplePeer .Tcp 22)) (1 * second) ok) true,
   .server ⟨.fwRecv, if ok then .fail else .msg FwMessage.newNack⟩ true, .server ⟨.rand8, some goodSalt⟩ true,
   .server ⟨.send trioGoAway, true⟩ true, .client ⟨.recv, .msg trioGoAway⟩ true]

theorem lostAck_run (ok : Bool) : TrioRun toyMac exampleConf fwConf examplePeer ⟨0xA423DDA7⟩ ⟨0xBC5D8077⟩ (Arr.replicate 32 7) fwStarted (lostAckEvs ok) (some .err)
    ((linkRun fwConf ⟨[], [], [], [], fwStarted⟩ (lostAckEvs ok)).getD ⟨[], [], [], [], fwStarted⟩) := by
  refine ⟨?_, ⟨some .err, ?_⟩, ?_⟩
  · have h1 : clientEvs (lostAckEvs ok) = (play (knockSequence toyMac ⟨0xA423DDA7⟩ ⟨0xBC5D8077⟩ (Arr.replicate 32 7))
        [.bool true, .r8 (some goodSalt), .bool true, .recv (.msg trioChallenge), .r8 (some goodSalt), .bool true, .recv (.msg trioGoAway)]).1 := by
      cases ok <;> decide +kernel
    have h2 : (play (knockSequence toyMac ⟨0xA423DDA7⟩ ⟨0xBC5D8077⟩ (Arr.replicate 32 7))
        [.bool true, .r8 (some goodSalt), .bool true, .recv (.msg trioChallenge), .r8 (some goodSalt), .bool true, .recv (.msg trioGoAway)]).2 = some .err := by
      decide +kernel
    rw [h1, ← h2]
    exact play_trace _ _
  · have h1 : serverEvs (lostAckEvs ok) = (play (session toyMac exampleConf examplePeer)
        [.recv (.msg exampleKnock), .r8 (some goodSalt), .r32 (some goodNonce), .bool true, .recv (.msg exampleResponse), .bool true, .bool true,
         .fw (if ok then .fail else .msg FwMessage.newNack), .r8 (some goodSalt), .bool true]).1 := by
      cases ok <;> decide +kernel
    have h2 : (play (session toyMac exampleConf examplePeer)
        [.recv (.msg exampleKnock), .r8 (some goodSalt), .r32 (some goodNonce), .bool true, .recv (.msg exampleResponse), .bool true, .bool true,
         .fw (if ok then .fail else .msg FwMessage.newNack), .r8 (some goodSalt), .bool true]).2 = some .err := by
      cases ok <;> decide +kernel
    rw [h1, ← h2]
    exact play_trace _ _
  · have h : (linkRun fwConf ⟨[], [], [], [], fwStarted⟩ (lostAckEvs ok)).isSome = true := by cases ok <;> decide +kernel
    obtain ⟨L, hL⟩ := Option.isSome_iff_exists.1 h
    rw [hL]; rfl

/-- **C117 is false** (the acknowledgement is lost). The client gets Go-Away, and the port is open for it. -/
theorem C117_negation : ∃ mac sconf fconf peer u r key n k0 s0 evs L res, ChainOf fconf n ∧ fwdStart fconf k0 true = some s0 ∧
    TrioRun mac sconf fconf peer u r key s0 evs (some .err) L ∧ Fair fconf n s0 (fwdOps evs) ∧ GotGoAway evs ∧ sconf.resource r = some res ∧
    OpenFor n L.fwd.kernel peer res := by
  refine ⟨toyMac, exampleConf, fwConf, examplePeer, ⟨0xA423DDA7⟩, ⟨0xBC5D8077⟩, Arr.replicate 32 7, fwNames, fwKernel, fwStarted,
    lostAckEvs true, _, { port := 22, tcp := true, udp := false, users := [] }, ⟨by decide, rfl, rfl, by decide, by decide⟩, fwStarted_ok, lostAck_run true,
    ⟨trivial, trivial⟩, ⟨trioGoAway, by decide +kernel, rfl⟩, by decide +kernel, ?_⟩
  rintro ⟨src, proto, dport⟩ hsrc hport hproto
  simp only at hsrc hport hproto
  subst hsrc hport
  rcases hproto with ⟨rfl, -⟩ | ⟨-, h⟩
  · decide +kernel
  · cases h

/-- A knock in which the Come-In does not reach the client. -/
def lostComeInEvs : List TrioEv := (trioEvs []).dropLast ++ [.client ⟨.recv, .fail⟩ true]

theorem lostComeIn_run : TrioRun toyMac exampleConf fwConf examplePeer ⟨0xA423DDA7⟩ ⟨0xBC5D8077⟩ (Arr.replicate 32 7) fwStarted lostComeInEvs (some .err)
    ((linkRun fwConf ⟨[], [], [], [], fwStarted⟩ lostComeInEvs).getD ⟨[], [], [], [], fwStarted⟩) := by
  refine ⟨?_, ⟨some (.ok ()), ?_⟩, ?_⟩
  · have h1 : clientEvs lostComeInEvs = (play (knockSequence toyMac ⟨0xA423DDA7⟩ ⟨0xBC5D8077⟩ (Arr.replicate 32 7))
        [.bool true, .r8 (some goodSalt), .bool true, .recv (.msg trioChallenge), .r8 (some goodSalt), .bool true, .recv .fail]).1 := by decide +kernel
    have h2 : (play (knockSequence toyMac ⟨0xA423DDA7⟩ ⟨0xBC5D8077⟩ (Arr.replicate 32 7))
        [.bool true, .r8 (some goodSalt), .bool true, .recv (.msg trioChallenge), .r8 (some goodSalt), .bool true, .recv .fail]).2 = some .err := by
      decide +kernel
    rw [h1, ← h2]
    exact play_trace _ _
  · have h : serverEvs lostComeInEvs = serverEvs (trioEvs []) := by decide +kernel
    rw [h]
    exact trioEvs_server []
  · have h : (linkRun fwConf ⟨[], [], [], [], fwStarted⟩ lostComeInEvs).isSome = true := by decide +kernel
    obtain ⟨L, hL⟩ := Option.isSome_iff_exists.1 h
    rw [hL]; rfl

/-- **C117 is false** (the Come-In is lost). The client gets no answer to its Response, and the port is open for it. -/
theorem C117_negation_lost : ∃ mac sconf fconf peer u r key n k0 s0 evs L res, ChainOf fconf n ∧ fwdStart fconf k0 true = some s0 ∧
    TrioRun mac sconf fconf peer u r key s0 evs (some .err) L ∧ Fair fconf n s0 (fwdOps evs) ∧ GotAck evs ∧ sconf.resource r = some res ∧
    OpenFor n L.fwd.kernel peer res := by
  refine ⟨toyMac, exampleConf, fwConf, examplePeer, ⟨0xA423DDA7⟩, ⟨0xBC5D8077⟩, Arr.replicate 32 7, fwNames, fwKernel, fwStarted,
    lostComeInEvs, _, { port := 22, tcp := true, udp := false, users := [] }, ⟨by decide, rfl, rfl, by decide, by decide⟩, fwStarted_ok, lostComeIn_run,
    ⟨trivial, trivial⟩, ⟨FwMessage.newAck, by decide +kernel, rfl⟩, by decide +kernel, ?_⟩
  rintro ⟨src, proto, dport⟩ hsrc hport hproto
  simp only at hsrc hport hproto
  subst hsrc hport
  rcases hproto with ⟨rfl, -⟩ | ⟨-, h⟩
  · decide +kernel
  · cases h

/-- A refusal without effect: `nft` fails, letmeinfwd answers with Nack, and the client gets Go-Away. -/
example : GotGoAway (lostAckEvs false) ∧ ¬ Acknowledged fwConf fwStarted (lostAckEvs false) ∧ apartOps (lostAckEvs false) = [] := by
  refine ⟨⟨trioGoAway, by decide +kernel, rfl⟩, ?_, rfl⟩
  rintro ⟨a, m, now, ok, b, reply, he, h, ha⟩
  have h2 := congrArg fwdOps he
  rw [fwdOps_append] at h2
  change [FwdOp.request (.msg (FwMessage.newOpen examplePeer .Tcp 22)) (1 * second) false] = _ ++ FwdOp.request (.msg m) now ok :: fwdOps b at h2
  cases h3 : fwdOps a with
  | nil =>
    rw [h3] at h2 h
    rw [List.nil_append] at h2
    injection h2 with h2 _
    injection h2 with h4 h5 h6
    injection h4 with h4
    subst h4 h5 h6
    have : (fwdStep fwConf fwStarted (.request (.msg (FwMessage.newOpen examplePeer .Tcp 22)) (1 * second) false)).1 = some FwMessage.newNack := by decide +kernel
    change (fwdStep fwConf fwStarted _).1 = _ at h
    rw [this] at h
    injection h with h
    subst h
    cases ha
  | cons x l =>
    rw [h3] at h2
    have := congrArg List.length h2
    simp at this

end Letmein.Props
