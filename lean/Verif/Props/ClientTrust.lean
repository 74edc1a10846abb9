import Verif.Props.Client
import Verif.Props.Network

/-!
# Property C69: what the client's verdict is worth
-/

namespace Letmein.Props

open Letmein Prog Spec

/-- C69 as stated: a client that reports success has been answered by letmeind, which sent a Come-In for this user and resource. -/
def C69_statement : Prop :=
  ∀ (mac : MacFn) (who : Nat → Party) (G : List GEv) (cid : Nat) (addr : IpAddr) (u : UserId) (r : ResourceId) (key : Key),
    GlobalRun mac who G → who cid = .client addr u r key → (knockSequence mac u r key).Trace (proj cid G) (some (.ok ())) →
    ∃ sid conf peer m ok, who sid = .server conf peer ∧ (sid, ⟨.send m, ok⟩) ∈ G ∧ m.operation = .ComeIn ∧ m.user = u ∧ m.resource = r

/-- **C69** (why it fails). Neither knowledge of the key nor of anything else is needed to make the client report success: whatever Challenge and whatever
Come-In it receives, for whatever user and resource and with whatever authentication, it succeeds if sending and the random generator work. -/
theorem C69_anyone_is_believed (mac : MacFn) (u : UserId) (r : ResourceId) (key : Key) (ch ci : Message) (hch : ch.operation = .Challenge)
    (hci : ci.operation = .ComeIn) : ∃ tr, (knockSequence mac u r key).Trace tr (some (.ok ())) ∧ received tr = [ch, ci] := by
  have hs : secureRandom 8 (some goodSalt) = .ok goodSalt := by decide +kernel
  let script : List Ans := [.bool true, .r8 (some goodSalt), .bool true, .recv (.msg ch), .r8 (some goodSalt), .bool true, .recv (.msg ci)]
  have h : (play (knockSequence mac u r key) script).2 = some (.ok ()) ∧ received (play (knockSequence mac u r key) script).1 = [ch, ci] := by
    simp [play, knockSequence, script, clientConnect, newMessage, clientSendMsg, recvSpecificMsg, Prog.bind, hs, hch, hci, Ans.as, checkReply, Bind.bind,
      Message.generateAuthNoChallenge, Message.generateAuth, R.bind, rassert, Message.new, received, recvd]
    rfl
  exact ⟨_, h.1 ▸ play_trace _ _, h.2⟩

/-- Nobody but one client. -/
def loneClient (sid : Nat) : Party :=
  if sid = 0 then .client examplePeer ⟨0xA423DDA7⟩ ⟨0xBC5D8077⟩ (Arr.replicate 32 7) else .nobody

/-- **C69** is not true: there is no letmeind at all, and the client reports success. -/
theorem C69_fails : ¬ C69_statement := by
  intro h
  obtain ⟨tr, ht, hr⟩ := C69_anyone_is_believed toyMac ⟨0xA423DDA7⟩ ⟨0xBC5D8077⟩ (Arr.replicate 32 7)
    (Message.new .Challenge ⟨1⟩ ⟨2⟩ goodSalt) (Message.new .ComeIn ⟨3⟩ ⟨4⟩ goodSalt) rfl rfl
  have h0 : proj 0 (tr.map fun e => (0, e)) = tr := by
    simp only [proj]
    rw [List.filter_eq_self.2 (by simp), List.map_map]
    exact List.map_id'' (fun _ => rfl) _
  have h1 : ∀ sid, sid ≠ 0 → proj sid (tr.map fun e => (0, e)) = [] := by
    intro sid hs
    simp only [proj]
    rw [List.filter_eq_nil_iff.2, List.map_nil]
    simp
    intro _ _ h
    exact hs h.symm
  obtain ⟨sid, conf, peer, -, -, hw, -⟩ := h toyMac loneClient (tr.map fun e => (0, e)) 0 examplePeer _ _ _ (by
    intro sid
    by_cases hs : sid = 0
    · subst hs; exact ⟨_, by rw [h0]; exact ht⟩
    · rw [h1 sid hs]
      simp only [loneClient, hs, if_false]
      exact ⟨none, rfl, .inl rfl⟩) rfl (by rw [h0]; exact ht)
  simp only [loneClient] at hw
  split at hw <;> cases hw

/-- **C69** (partial: for an authentic channel). If everything the client receives was sent by letmeind, then a session of letmeind sent the Come-In,
after its request had been acknowledged by letmeinfwd and its peer had been authenticated. Missing: the Come-In need not be for this user and
resource nor from the session with this client, since the client only warns about differences. -/
theorem C69_authentic_partial (mac : MacFn) (who : Nat → Party) (G : List GEv) (cid : Nat) (u : UserId) (r : ResourceId) (key : Key)
    (hG : GlobalRun mac who G) (hok : (knockSequence mac u r key).Trace (proj cid G) (some (.ok ())))
    (hauth : ∀ m, (cid, ⟨.recv, .msg m⟩) ∈ G → ∃ sid conf peer ok, who sid = .server conf peer ∧ (sid, ⟨.send m, ok⟩) ∈ G) :
    ∃ sid conf peer m ok pre post, who sid = .server conf peer ∧ proj sid G = pre ++ ⟨.send m, ok⟩ :: post ∧ m.operation = .ComeIn ∧
      (∃ req reply, [⟨.fwSend req, true⟩, ⟨.fwRecv, .msg reply⟩].Sublist pre ∧ reply.operation = .Ack ∧ fwRequests pre = [req]) ∧
      CompleteAuth mac conf pre := by
  obtain ⟨knock, ch, resp, ci, _, _, _, hci, _, _, hsub⟩ := C13_success mac u r key _ hok
  have hmem : (cid, (⟨.recv, .msg ci⟩ : Ev)) ∈ G := by
    have : (⟨.recv, .msg ci⟩ : Ev) ∈ proj cid G := hsub.subset (by simp)
    simp only [proj, List.mem_map, List.mem_filter, decide_eq_true_eq] at this
    obtain ⟨⟨s, e⟩, ⟨h1, h2⟩, h3⟩ := this
    simp only at h2 h3
    rw [← h2, ← h3]
    exact h1
  obtain ⟨sid, conf, peer, ok, hw, hs⟩ := hauth ci hmem
  have hin : (⟨.send ci, ok⟩ : Ev) ∈ proj sid G := List.mem_map.2 ⟨_, List.mem_filter.2 ⟨hs, by simp⟩, rfl⟩
  obtain ⟨pre, post, hsplit⟩ := List.append_of_mem hin
  obtain ⟨o, ht⟩ := hG sid
  rw [hw] at ht
  obtain ⟨h1, h2, _⟩ := C09_comein_after_ack mac conf peer _ o ht pre _ post hsplit ci rfl hci
  exact ⟨sid, conf, peer, ci, ok, pre, post, hw, hsplit, hci, h1, h2⟩

/-- The hypotheses are met by an honest run of a client and a session. -/
example : GlobalRun toyMac (relayWho examplePeer) relayRun ∧
    (knockSequence toyMac ⟨0xA423DDA7⟩ ⟨0xBC5D8077⟩ (Arr.replicate 32 7)).Trace (proj 0 relayRun) (some (.ok ())) ∧
    ∀ m, (0, ⟨.recv, .msg m⟩) ∈ relayRun → ∃ sid conf peer ok, relayWho examplePeer sid = .server conf peer ∧ (sid, ⟨.send m, ok⟩) ∈ relayRun := by
  refine ⟨relayRun_run _, ?_, ?_⟩
  · have h : proj 0 relayRun = (play (knockSequence toyMac ⟨0xA423DDA7⟩ ⟨0xBC5D8077⟩ (Arr.replicate 32 7)) clientScript).1 := by decide +kernel
    have h2 : (play (knockSequence toyMac ⟨0xA423DDA7⟩ ⟨0xBC5D8077⟩ (Arr.replicate 32 7)) clientScript).2 = some (.ok ()) := by decide +kernel
    rw [h, ← h2]
    exact play_trace _ _
  · intro m hm
    refine ⟨1, exampleConf, examplePeer, true, rfl, ?_⟩
    simp [relayRun] at hm
    rcases hm with h | h <;> subst h <;> simp [relayRun]

end Letmein.Props
