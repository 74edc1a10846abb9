import Verif.Model.Joint
import Verif.Lemmas.Client

/-!
# The linear run of an honest client and server
-/

set_option linter.unusedSimpArgs false

namespace Letmein

open Prog Spec

variable (mac : MacFn) (conf : Config) (peer : IpAddr) (u : UserId) (r : ResourceId) (key : Key) (res : Resource)
  (pt : PortType)

/-! Client positions, from the end. -/

def CP7 (p : Prog Unit) : Prop := p = .ret (.ok ())
def CP6 (p : Prog Unit) : Prop := ∃ k, p = .act .recv k ∧ ∀ m : Message, (m.operation = .ComeIn → CP7 (k (.msg m))) ∧
  (m.operation = .GoAway → k (.msg m) = .ret .err)
def CP5 (c : Auth) (s : Salt) (p : Prog Unit) : Prop :=
  ∃ k, p = .act (.send (responseMsg mac u r key s c)) k ∧ CP6 (k true)
def CP4 (c : Auth) (p : Prog Unit) : Prop :=
  ∃ k, p = .act .rand8 k ∧ ∀ s : Arr 8, secureRandom 8 (some s) = .ok s → CP5 mac u r key c s (k (some s))
def CP3 (p : Prog Unit) : Prop :=
  ∃ k, p = .act .recv k ∧ ∀ ch : Message, ch.operation = .Challenge → CP4 mac u r key ch.auth (k (.msg ch))
def CP2 (s : Salt) (p : Prog Unit) : Prop :=
  ∃ k, p = .act (.send (knockMsg mac u r key s)) k ∧ CP3 mac u r key (k true)
def CP1 (p : Prog Unit) : Prop :=
  ∃ k, p = .act .rand8 k ∧ ∀ s : Arr 8, secureRandom 8 (some s) = .ok s → CP2 mac u r key s (k (some s))
def CP0 (p : Prog Unit) : Prop := ∃ k, p = .act .connect k ∧ CP1 mac u r key (k true)

theorem Prog.ret_ok_bind {α β : Type} (a : α) (f : α → Prog β) : (Prog.ret (.ok a) >>= f) = f a := rfl
theorem Prog.act_bind {α β : Type} (a : Act) (k : a.Resp → Prog α) (f : α → Prog β) :
    (Prog.act a k >>= f) = .act a (fun x => k x >>= f) := rfl

theorem Prog.act_orElse {α : Type} (a : Act) (k : a.Resp → Prog α) (q : Prog α) :
    (Prog.act a k).orElse q = .act a (fun x => (k x).orElse q) := rfl
theorem Prog.ok_orElse {α : Type} (a : α) (q : Prog α) : (Prog.ret (.ok a)).orElse q = .ret (.ok a) := rfl

theorem client_CP0 : CP0 mac u r key (knockSequence mac u r key) := by
  unfold knockSequence
  simp only [clientConnect, newMessage, clientSendMsg, recvSpecificMsg, checkReply, Prog.act_bind, Prog.ret_ok_bind]
  refine ⟨_, rfl, ?_⟩
  simp only [if_true, Prog.ret_ok_bind]
  refine ⟨_, rfl, fun s hs => ?_⟩
  have hk : (Message.new .Knock u r s).generateAuthNoChallenge mac key = .ok (knockMsg mac u r key s) := by
    simp only [Message.generateAuthNoChallenge, rassert, Message.new, decide_true, if_true, R.bind_ok,
      Props.authenticateNoChallenge_spec, knockMsg]
    rfl
  simp only [hs, R.bind_ok, hk, Prog.ret_ok_bind]
  refine ⟨_, rfl, ?_⟩
  simp only [if_true, Prog.ret_ok_bind]
  refine ⟨_, rfl, fun ch hch => ?_⟩
  simp only [hch, reduceCtorEq, if_false, ne_eq, not_true, Prog.ret_ok_bind]
  refine ⟨_, rfl, fun s' hs' => ?_⟩
  have hk : (Message.new .Response u r s').generateAuth mac key ch = .ok (responseMsg mac u r key s' ch.auth) := by
    simp only [Message.generateAuth, rassert, Message.new, hch, decide_true, if_true, R.bind_ok,
      Props.authenticate_spec, responseMsg]
    rfl
  simp only [hs', R.bind_ok, hk, Prog.ret_ok_bind]
  refine ⟨_, rfl, ?_⟩
  simp only [if_true, Prog.ret_ok_bind]
  refine ⟨_, rfl, fun ci => ⟨fun hci => ?_, fun hci => ?_⟩⟩
  · simp only [CP7, hci, reduceCtorEq, if_false, ne_eq, not_true, Prog.ret_ok_bind]
  · simp only [hci, if_true]
    rfl

/-! Server positions, from the end. -/

def SP10 (p : Prog Unit) : Prop := p = .ret (.ok ())
def SP9 (s : Salt) (p : Prog Unit) : Prop := ∃ k, p = .act (.send (Message.new .ComeIn u r s)) k ∧ SP10 (k true)
def SP8 (p : Prog Unit) : Prop :=
  ∃ k, p = .act .rand8 k ∧ ∀ s : Arr 8, secureRandom 8 (some s) = .ok s → SP9 u r s (k (some s))
def NP9 (s : Salt) (p : Prog Unit) : Prop := ∃ k, p = .act (.send (Message.new .GoAway u r s)) k ∧ k true = .ret .err
def NP8 (p : Prog Unit) : Prop :=
  ∃ k, p = .act .rand8 k ∧ ∀ s : Arr 8, secureRandom 8 (some s) = .ok s → NP9 u r s (k (some s))
def SP7 (p : Prog Unit) : Prop :=
  ∃ k, p = .act .fwRecv k ∧ ∀ m : FwMessage, (m.operation = .Ack → SP8 u r (k (.msg m))) ∧ (m.operation = .Nack → NP8 u r (k (.msg m)))
def SP6 (p : Prog Unit) : Prop :=
  ∃ k, p = .act (.fwSend (FwMessage.newOpen peer pt res.port)) k ∧ SP7 u r (k true)
def SP5 (p : Prog Unit) : Prop := ∃ k, p = .act .fwConnect k ∧ SP6 peer u r res pt (k true)
def SP4 (n : Auth) (p : Prog Unit) : Prop :=
  ∃ k, p = .act .recv k ∧ ∀ s, SP5 peer u r res pt (k (.msg (responseMsg mac u r key s n)))
def SP3 (s : Salt) (n : Auth) (p : Prog Unit) : Prop :=
  ∃ k, p = .act (.send { Message.new .Challenge u r s with auth := n }) k ∧ SP4 mac peer u r key res pt n (k true)
def SP2 (s : Salt) (p : Prog Unit) : Prop :=
  ∃ k, p = .act .rand32 k ∧ ∀ n : Arr 32, secureRandom 32 (some n) = .ok n → SP3 mac peer u r key res pt s n (k (some n))
def SP1 (p : Prog Unit) : Prop :=
  ∃ k, p = .act .rand8 k ∧ ∀ s : Arr 8, secureRandom 8 (some s) = .ok s → SP2 mac peer u r key res pt s (k (some s))
def SP0 (p : Prog Unit) : Prop :=
  ∃ k, p = .act .recv k ∧ ∀ s, SP1 mac peer u r key res pt (k (.msg (knockMsg mac u r key s)))

theorem server_SP0 (hk : conf.key u = some key) (hr : conf.resource r = some res) (hu : res.containsUser u = true)
    (hp : res.port ≠ conf.port.port) (hpt : res.portType = .ok pt) :
    SP0 mac peer u r key res pt (session mac conf peer) := by
  unfold session recvMsg
  rw [Prog.act_bind]
  refine ⟨_, rfl, fun s => ?_⟩
  have hc : (knockMsg mac u r key s).checkAuthOkNoChallenge mac key = .ok true :=
    (Props.C04_check_knock_iff _ _ _).2 ⟨rfl, rfl⟩
  have hu' : (knockMsg mac u r key s).user = u := rfl
  have hr' : (knockMsg mac u r key s).resource = r := rfl
  have ho' : (knockMsg mac u r key s).operation = .Knock := rfl
  simp only [ho', ne_eq, not_true, if_false, Bool.false_eq_true, Prog.ret_ok_bind, hu', hr', hk, hc, Bool.not_true, hr, hu,
    hp, sessionChallenge, newMessage, Prog.act_bind]
  refine ⟨_, rfl, fun s hs => ?_⟩
  simp only [hs, R.bind_ok, Prog.ret_ok_bind, generateChallenge, Message.new, rassert, decide_true, if_true, Prog.act_bind]
  refine ⟨_, rfl, fun n hn => ?_⟩
  simp only [hn, R.bind_ok, Prog.ret_ok_bind, Message.generateChallenge, rassert, decide_true, if_true, sendMsg, Prog.act_bind]
  refine ⟨_, rfl, ?_⟩
  simp only [if_true, Prog.ret_ok_bind, recvMsg, Prog.act_bind]
  refine ⟨_, rfl, fun s' => ?_⟩
  have hc : (responseMsg mac u r key s' n).checkAuthOk mac key
      { magic := MAGIC, operation := .Challenge, user := u, resource := r, salt := s, auth := n } = .ok true :=
    (Props.C04_check_response_iff _ _ _ _).2 ⟨rfl, rfl, rfl⟩
  have hu' : (responseMsg mac u r key s' n).user = u := rfl
  have hr' : (responseMsg mac u r key s' n).resource = r := rfl
  have ho' : (responseMsg mac u r key s' n).operation = .Response := rfl
  simp only [ho', hu', hr', ne_eq, not_true, decide_false, if_false, Bool.false_eq_true, Prog.ret_ok_bind, hc,
    Bool.not_true, sessionOpen, hpt, fwConnect, Prog.act_orElse, Prog.act_bind]
  refine ⟨_, rfl, ?_⟩
  simp only [if_true, Prog.ok_orElse, Prog.ret_ok_bind, rassert, decide_true, fwOpenPort, Prog.act_orElse, Prog.act_bind]
  refine ⟨_, rfl, ?_⟩
  simp only [if_true, Prog.act_orElse, Prog.act_bind]
  refine ⟨_, rfl, fun ack => ⟨fun ha => ?_, fun ha => ?_⟩⟩
  · simp only [ha, Prog.ok_orElse, Prog.ret_ok_bind]
    refine ⟨_, rfl, fun s hs => ?_⟩
    simp only [hs, R.bind_ok, Prog.ret_ok_bind]
    exact ⟨_, rfl, rfl⟩
  · have hg : ∀ p : ErrorPolicy, goAwayAllowed p .ChallengeResponseAuth = true := by intro p; cases p <;> rfl
    simp only [ha, reject, sendGoAway, hg, if_true, newMessage, Prog.act_bind]
    refine ⟨_, rfl, fun s hs => ?_⟩
    simp only [hs, R.bind_ok]
    exact ⟨_, rfl, rfl⟩

/-- Where the two sides are after `n` steps. -/
def Phase (n : Nat) (J : Joint) : Prop :=
  let req := FwMessage.newOpen peer pt res.port
  match n with
  | 0 => CP0 mac u r key J.client ∧ SP0 mac peer u r key res pt J.server ∧ J.c2s = [] ∧ J.s2c = [] ∧ J.reqs = []
  | 1 => CP1 mac u r key J.client ∧ SP0 mac peer u r key res pt J.server ∧ J.c2s = [] ∧ J.s2c = [] ∧ J.reqs = []
  | 2 => ∃ s, CP2 mac u r key s J.client ∧ SP0 mac peer u r key res pt J.server ∧ J.c2s = [] ∧ J.s2c = [] ∧ J.reqs = []
  | 3 => ∃ s, CP3 mac u r key J.client ∧ SP0 mac peer u r key res pt J.server ∧
      J.c2s = [knockMsg mac u r key s] ∧ J.s2c = [] ∧ J.reqs = []
  | 4 => CP3 mac u r key J.client ∧ SP1 mac peer u r key res pt J.server ∧ J.c2s = [] ∧ J.s2c = [] ∧ J.reqs = []
  | 5 => ∃ s, CP3 mac u r key J.client ∧ SP2 mac peer u r key res pt s J.server ∧ J.c2s = [] ∧ J.s2c = [] ∧ J.reqs = []
  | 6 => ∃ s n, CP3 mac u r key J.client ∧ SP3 mac peer u r key res pt s n J.server ∧
      J.c2s = [] ∧ J.s2c = [] ∧ J.reqs = []
  | 7 => ∃ s n, CP3 mac u r key J.client ∧ SP4 mac peer u r key res pt n J.server ∧ J.c2s = [] ∧
      J.s2c = [{ Message.new .Challenge u r s with auth := n }] ∧ J.reqs = []
  | 8 => ∃ n, CP4 mac u r key n J.client ∧ SP4 mac peer u r key res pt n J.server ∧ J.c2s = [] ∧ J.s2c = [] ∧ J.reqs = []
  | 9 => ∃ s n, CP5 mac u r key n s J.client ∧ SP4 mac peer u r key res pt n J.server ∧
      J.c2s = [] ∧ J.s2c = [] ∧ J.reqs = []
  | 10 => ∃ s n, CP6 J.client ∧ SP4 mac peer u r key res pt n J.server ∧
      J.c2s = [responseMsg mac u r key s n] ∧ J.s2c = [] ∧ J.reqs = []
  | 11 => CP6 J.client ∧ SP5 peer u r res pt J.server ∧ J.c2s = [] ∧ J.s2c = [] ∧ J.reqs = []
  | 12 => CP6 J.client ∧ SP6 peer u r res pt J.server ∧ J.c2s = [] ∧ J.s2c = [] ∧ J.reqs = []
  | 13 => CP6 J.client ∧ SP7 u r J.server ∧ J.c2s = [] ∧ J.s2c = [] ∧ J.reqs = [req]
  | 14 => CP6 J.client ∧ SP8 u r J.server ∧ J.c2s = [] ∧ J.s2c = [] ∧ J.reqs = [req]
  | 15 => ∃ s, CP6 J.client ∧ SP9 u r s J.server ∧ J.c2s = [] ∧ J.s2c = [] ∧ J.reqs = [req]
  | 16 => ∃ s, CP6 J.client ∧ SP10 J.server ∧ J.c2s = [] ∧ J.s2c = [Message.new .ComeIn u r s] ∧ J.reqs = [req]
  | 17 => CP7 J.client ∧ SP10 J.server ∧ J.c2s = [] ∧ J.s2c = [] ∧ J.reqs = [req]
  | _ => False

theorem phase_step {n : Nat} {J J' : Joint} (hp : Phase mac peer u r key res pt n J) (hs : JStep J J') :
    Phase mac peer u r key res pt (n + 1) J' := by
  unfold Phase at hp
  obtain ⟨c, s, a, b, rq⟩ := J
  split at hp
  · obtain ⟨hc0, hs0, h1, h2, h3⟩ := hp
    have hc := hc0; obtain ⟨k, hc, hk⟩ := hc
    have hss := hs0; obtain ⟨ks, hss, hks⟩ := hss
    simp only at hc hss h1 h2 h3
    subst hc hss h1 h2 h3
    cases hs
    exact ⟨hk, hs0, rfl, rfl, rfl⟩
  · obtain ⟨hc0, hs0, h1, h2, h3⟩ := hp
    have hc := hc0; obtain ⟨k, hc, hk⟩ := hc
    have hss := hs0; obtain ⟨ks, hss, hks⟩ := hss
    simp only at hc hss h1 h2 h3
    subst hc hss h1 h2 h3
    cases hs
    exact ⟨_, hk _ ‹_›, hs0, rfl, rfl, rfl⟩
  · obtain ⟨s1, hc0, hs0, h1, h2, h3⟩ := hp
    have hc := hc0; obtain ⟨k, hc, hk⟩ := hc
    have hss := hs0; obtain ⟨ks, hss, hks⟩ := hss
    simp only at hc hss h1 h2 h3
    subst hc hss h1 h2 h3
    cases hs
    exact ⟨_, hk, hs0, rfl, rfl, rfl⟩
  · obtain ⟨s1, hc0, hs0, h1, h2, h3⟩ := hp
    have hc := hc0; obtain ⟨k, hc, hk⟩ := hc
    have hss := hs0; obtain ⟨ks, hss, hks⟩ := hss
    simp only at hc hss h1 h2 h3
    subst hc hss h1 h2 h3
    cases hs
    exact ⟨hc0, hks _, rfl, rfl, rfl⟩
  · obtain ⟨hc0, hs0, h1, h2, h3⟩ := hp
    have hc := hc0; obtain ⟨k, hc, hk⟩ := hc
    have hss := hs0; obtain ⟨ks, hss, hks⟩ := hss
    simp only at hc hss h1 h2 h3
    subst hc hss h1 h2 h3
    cases hs
    exact ⟨_, hc0, hks _ ‹_›, rfl, rfl, rfl⟩
  · obtain ⟨s1, hc0, hs0, h1, h2, h3⟩ := hp
    have hc := hc0; obtain ⟨k, hc, hk⟩ := hc
    have hss := hs0; obtain ⟨ks, hss, hks⟩ := hss
    simp only at hc hss h1 h2 h3
    subst hc hss h1 h2 h3
    cases hs
    exact ⟨_, _, hc0, hks _ ‹_›, rfl, rfl, rfl⟩
  · obtain ⟨s1, n1, hc0, hs0, h1, h2, h3⟩ := hp
    have hc := hc0; obtain ⟨k, hc, hk⟩ := hc
    have hss := hs0; obtain ⟨ks, hss, hks⟩ := hss
    simp only at hc hss h1 h2 h3
    subst hc hss h1 h2 h3
    cases hs
    exact ⟨_, _, hc0, hks, rfl, rfl, rfl⟩
  · obtain ⟨s1, n1, hc0, hs0, h1, h2, h3⟩ := hp
    have hc := hc0; obtain ⟨k, hc, hk⟩ := hc
    have hss := hs0; obtain ⟨ks, hss, hks⟩ := hss
    simp only at hc hss h1 h2 h3
    subst hc hss h1 h2 h3
    cases hs
    exact ⟨_, hk _ rfl, hs0, rfl, rfl, rfl⟩
  · obtain ⟨n1, hc0, hs0, h1, h2, h3⟩ := hp
    have hc := hc0; obtain ⟨k, hc, hk⟩ := hc
    have hss := hs0; obtain ⟨ks, hss, hks⟩ := hss
    simp only at hc hss h1 h2 h3
    subst hc hss h1 h2 h3
    cases hs
    exact ⟨_, _, hk _ ‹_›, hs0, rfl, rfl, rfl⟩
  · obtain ⟨s1, n1, hc0, hs0, h1, h2, h3⟩ := hp
    have hc := hc0; obtain ⟨k, hc, hk⟩ := hc
    have hss := hs0; obtain ⟨ks, hss, hks⟩ := hss
    simp only at hc hss h1 h2 h3
    subst hc hss h1 h2 h3
    cases hs
    exact ⟨_, _, hk, hs0, rfl, rfl, rfl⟩
  · obtain ⟨s1, n1, hc0, hs0, h1, h2, h3⟩ := hp
    have hc := hc0; obtain ⟨k, hc, hk⟩ := hc
    have hss := hs0; obtain ⟨ks, hss, hks⟩ := hss
    simp only at hc hss h1 h2 h3
    subst hc hss h1 h2 h3
    cases hs
    exact ⟨hc0, hks _, rfl, rfl, rfl⟩
  · obtain ⟨hc0, hs0, h1, h2, h3⟩ := hp
    have hc := hc0; obtain ⟨k, hc, hk⟩ := hc
    have hss := hs0; obtain ⟨ks, hss, hks⟩ := hss
    simp only at hc hss h1 h2 h3
    subst hc hss h1 h2 h3
    cases hs
    exact ⟨hc0, hks, rfl, rfl, rfl⟩
  · obtain ⟨hc0, hs0, h1, h2, h3⟩ := hp
    have hc := hc0; obtain ⟨k, hc, hk⟩ := hc
    have hss := hs0; obtain ⟨ks, hss, hks⟩ := hss
    simp only at hc hss h1 h2 h3
    subst hc hss h1 h2 h3
    cases hs
    exact ⟨hc0, hks, rfl, rfl, rfl⟩
  · obtain ⟨hc0, hs0, h1, h2, h3⟩ := hp
    have hc := hc0; obtain ⟨k, hc, hk⟩ := hc
    have hss := hs0; obtain ⟨ks, hss, hks⟩ := hss
    simp only at hc hss h1 h2 h3
    subst hc hss h1 h2 h3
    cases hs
    exact ⟨hc0, (hks _).1 ‹_›, rfl, rfl, rfl⟩
  · obtain ⟨hc0, hs0, h1, h2, h3⟩ := hp
    have hc := hc0; obtain ⟨k, hc, hk⟩ := hc
    have hss := hs0; obtain ⟨ks, hss, hks⟩ := hss
    simp only at hc hss h1 h2 h3
    subst hc hss h1 h2 h3
    cases hs
    exact ⟨_, hc0, hks _ ‹_›, rfl, rfl, rfl⟩
  · obtain ⟨s1, hc0, hs0, h1, h2, h3⟩ := hp
    have hc := hc0; obtain ⟨k, hc, hk⟩ := hc
    have hss := hs0; obtain ⟨ks, hss, hks⟩ := hss
    simp only at hc hss h1 h2 h3
    subst hc hss h1 h2 h3
    cases hs
    exact ⟨_, hc0, hks, rfl, rfl, rfl⟩
  · obtain ⟨s1, hc0, hs0, h1, h2, h3⟩ := hp
    have hc := hc0; obtain ⟨k, hc, hk⟩ := hc
    have hss := hs0; unfold SP10 at hss
    simp only at hc hss h1 h2 h3
    subst hc hss h1 h2 h3
    cases hs
    exact ⟨(hk _).1 rfl, hs0, rfl, rfl, rfl⟩
  · obtain ⟨hc0, hs0, h1, h2, h3⟩ := hp
    have hc := hc0; unfold CP7 at hc
    have hss := hs0; unfold SP10 at hss
    simp only at hc hss h1 h2 h3
    subst hc hss h1 h2 h3
    cases hs
  · exact hp.elim

theorem phase_progress {n : Nat} {J : Joint} (hp : Phase mac peer u r key res pt n J) (hn : n < 17)
    (hr8 : ∃ s : Arr 8, secureRandom 8 (some s) = .ok s) (hr32 : ∃ s : Arr 32, secureRandom 32 (some s) = .ok s)
    (hack : ∃ m : FwMessage, m.operation = .Ack) : ∃ J', JStep J J' := by
  obtain ⟨g8, hg8⟩ := hr8
  obtain ⟨g32, hg32⟩ := hr32
  obtain ⟨gack, hgack⟩ := hack
  unfold Phase at hp
  obtain ⟨c, s, a, b, rq⟩ := J
  split at hp
  · obtain ⟨hc0, hs0, h1, h2, h3⟩ := hp
    have hc := hc0; obtain ⟨k, hc, hk⟩ := hc
    have hss := hs0; obtain ⟨ks, hss, hks⟩ := hss
    simp only at hc hss h1 h2 h3
    subst hc hss h1 h2 h3
    exact ⟨_, .cConnect⟩
  · obtain ⟨hc0, hs0, h1, h2, h3⟩ := hp
    have hc := hc0; obtain ⟨k, hc, hk⟩ := hc
    have hss := hs0; obtain ⟨ks, hss, hks⟩ := hss
    simp only at hc hss h1 h2 h3
    subst hc hss h1 h2 h3
    exact ⟨_, .cRand _ hg8⟩
  · obtain ⟨s1, hc0, hs0, h1, h2, h3⟩ := hp
    have hc := hc0; obtain ⟨k, hc, hk⟩ := hc
    have hss := hs0; obtain ⟨ks, hss, hks⟩ := hss
    simp only at hc hss h1 h2 h3
    subst hc hss h1 h2 h3
    exact ⟨_, .cSend⟩
  · obtain ⟨s1, hc0, hs0, h1, h2, h3⟩ := hp
    have hc := hc0; obtain ⟨k, hc, hk⟩ := hc
    have hss := hs0; obtain ⟨ks, hss, hks⟩ := hss
    simp only at hc hss h1 h2 h3
    subst hc hss h1 h2 h3
    exact ⟨_, .sRecv⟩
  · obtain ⟨hc0, hs0, h1, h2, h3⟩ := hp
    have hc := hc0; obtain ⟨k, hc, hk⟩ := hc
    have hss := hs0; obtain ⟨ks, hss, hks⟩ := hss
    simp only at hc hss h1 h2 h3
    subst hc hss h1 h2 h3
    exact ⟨_, .sRand8 _ hg8⟩
  · obtain ⟨s1, hc0, hs0, h1, h2, h3⟩ := hp
    have hc := hc0; obtain ⟨k, hc, hk⟩ := hc
    have hss := hs0; obtain ⟨ks, hss, hks⟩ := hss
    simp only at hc hss h1 h2 h3
    subst hc hss h1 h2 h3
    exact ⟨_, .sRand32 _ hg32⟩
  · obtain ⟨s1, n1, hc0, hs0, h1, h2, h3⟩ := hp
    have hc := hc0; obtain ⟨k, hc, hk⟩ := hc
    have hss := hs0; obtain ⟨ks, hss, hks⟩ := hss
    simp only at hc hss h1 h2 h3
    subst hc hss h1 h2 h3
    exact ⟨_, .sSend⟩
  · obtain ⟨s1, n1, hc0, hs0, h1, h2, h3⟩ := hp
    have hc := hc0; obtain ⟨k, hc, hk⟩ := hc
    have hss := hs0; obtain ⟨ks, hss, hks⟩ := hss
    simp only at hc hss h1 h2 h3
    subst hc hss h1 h2 h3
    exact ⟨_, .cRecv⟩
  · obtain ⟨n1, hc0, hs0, h1, h2, h3⟩ := hp
    have hc := hc0; obtain ⟨k, hc, hk⟩ := hc
    have hss := hs0; obtain ⟨ks, hss, hks⟩ := hss
    simp only at hc hss h1 h2 h3
    subst hc hss h1 h2 h3
    exact ⟨_, .cRand _ hg8⟩
  · obtain ⟨s1, n1, hc0, hs0, h1, h2, h3⟩ := hp
    have hc := hc0; obtain ⟨k, hc, hk⟩ := hc
    have hss := hs0; obtain ⟨ks, hss, hks⟩ := hss
    simp only at hc hss h1 h2 h3
    subst hc hss h1 h2 h3
    exact ⟨_, .cSend⟩
  · obtain ⟨s1, n1, hc0, hs0, h1, h2, h3⟩ := hp
    have hc := hc0; obtain ⟨k, hc, hk⟩ := hc
    have hss := hs0; obtain ⟨ks, hss, hks⟩ := hss
    simp only at hc hss h1 h2 h3
    subst hc hss h1 h2 h3
    exact ⟨_, .sRecv⟩
  · obtain ⟨hc0, hs0, h1, h2, h3⟩ := hp
    have hc := hc0; obtain ⟨k, hc, hk⟩ := hc
    have hss := hs0; obtain ⟨ks, hss, hks⟩ := hss
    simp only at hc hss h1 h2 h3
    subst hc hss h1 h2 h3
    exact ⟨_, .sFwConnect⟩
  · obtain ⟨hc0, hs0, h1, h2, h3⟩ := hp
    have hc := hc0; obtain ⟨k, hc, hk⟩ := hc
    have hss := hs0; obtain ⟨ks, hss, hks⟩ := hss
    simp only at hc hss h1 h2 h3
    subst hc hss h1 h2 h3
    exact ⟨_, .sFwSend⟩
  · obtain ⟨hc0, hs0, h1, h2, h3⟩ := hp
    have hc := hc0; obtain ⟨k, hc, hk⟩ := hc
    have hss := hs0; obtain ⟨ks, hss, hks⟩ := hss
    simp only at hc hss h1 h2 h3
    subst hc hss h1 h2 h3
    exact ⟨_, .sFwRecv _ hgack⟩
  · obtain ⟨hc0, hs0, h1, h2, h3⟩ := hp
    have hc := hc0; obtain ⟨k, hc, hk⟩ := hc
    have hss := hs0; obtain ⟨ks, hss, hks⟩ := hss
    simp only at hc hss h1 h2 h3
    subst hc hss h1 h2 h3
    exact ⟨_, .sRand8 _ hg8⟩
  · obtain ⟨s1, hc0, hs0, h1, h2, h3⟩ := hp
    have hc := hc0; obtain ⟨k, hc, hk⟩ := hc
    have hss := hs0; obtain ⟨ks, hss, hks⟩ := hss
    simp only at hc hss h1 h2 h3
    subst hc hss h1 h2 h3
    exact ⟨_, .sSend⟩
  · obtain ⟨s1, hc0, hs0, h1, h2, h3⟩ := hp
    have hc := hc0; obtain ⟨k, hc, hk⟩ := hc
    have hss := hs0; unfold SP10 at hss
    simp only at hc hss h1 h2 h3
    subst hc hss h1 h2 h3
    exact ⟨_, .cRecv⟩
  · omega
  · exact hp.elim

theorem phase_steps {J : Joint} (hp : Phase mac peer u r key res pt 0 J) {n : Nat} {J' : Joint} (hs : JSteps n J J') :
    Phase mac peer u r key res pt n J' := by
  induction hs with
  | refl => exact hp
  | step _ h ih => exact phase_step mac peer u r key res pt (ih hp) h

theorem phase_le {n : Nat} {J : Joint} (hp : Phase mac peer u r key res pt n J) : n ≤ 17 := by
  unfold Phase at hp
  split at hp <;> first | omega | exact hp.elim

end Letmein
