import Verif.Model.ByteJoint
import Verif.Props.Stream
import Verif.Props.Joint

/-!
# The byte level follows the message level
-/

namespace Letmein.Props
open Letmein Prog Spec

/-- The part of the message being sent that has been written. -/
def txPart : Io → Bytes
  | .tx b c => b.take c
  | _ => []

/-- The part of the next message that has been read. -/
def rxPart : Io → Bytes
  | .rx b c => b.take c
  | _ => []

def IoOk (s : Side) : Prop :=
  match s.io with
  | .idle => True
  | .tx b c => ∃ m k, s.prog = .act (.send m) k ∧ b = wireOf m ∧ b.length = 56 ∧ c < 56
  | .rx b c => ∃ k, s.prog = .act .recv k ∧ b = b.take c ++ List.replicate (56 - c) 0 ∧ b.length = 56 ∧ c < 56

/-- All messages the program sends carry the magic. -/
def SendsMagic (p : Prog Unit) : Prop :=
  ∃ h, Ok (fun _ e => ∀ m, sentMsg e = some m → m.magic = MAGIC) (fun _ _ => True) p h

theorem SendsMagic_next {a : Act} {k : a.Resp → Prog Unit} (h : SendsMagic (.act a k)) (x : a.Resp) : SendsMagic (k x) := by
  obtain ⟨h, ho⟩ := h
  exact ⟨_, (ho x).2⟩

theorem SendsMagic_msg {m : Message} {k} (h : SendsMagic (.act (.send m) k)) : m.magic = MAGIC := by
  obtain ⟨h, ho⟩ := h
  exact (ho true).1 m rfl

theorem SendsMagic_session (mac : MacFn) (conf : Config) (peer : IpAddr) : SendsMagic (session mac conf peer) := by
  refine ⟨[], session_ok ?_⟩
  have t : ∀ (a : Act) (x : a.Resp), sentMsg ⟨a, x⟩ = none → ∀ m, sentMsg ⟨a, x⟩ = some m → m.magic = MAGIC := by
    intro a x h m hm; rw [h] at hm; cases hm
  have t2 : ∀ (op : Operation) (u r s) (x : Bool) (m : Message), sentMsg ⟨.send (Message.new op u r s), x⟩ = some m → m.magic = MAGIC := by
    intro op u r s x m hm
    simp only [sentMsg, Option.some.injEq] at hm
    subst hm; rfl
  constructor <;> intros <;> try first
    | trivial
    | exact t _ _ rfl _ ‹_›
    | exact ⟨fun m => t _ _ rfl m, fun _ => trivial⟩
    | (refine reject_ok ?_ ?_ ?_ ?_ ?_ <;> intros <;> first | trivial | exact t _ _ rfl _ ‹_› | exact t2 _ _ _ _ _ _ ‹_›)
    | exact ⟨fun m => t2 _ _ _ _ _ m, trivial⟩
  all_goals
    rename_i hx
    simp only [sentMsg, Option.some.injEq] at hx
    subst hx; rfl

theorem SendsMagic_client (mac : MacFn) (u : UserId) (r : ResourceId) (key : Key) : SendsMagic (knockSequence mac u r key) := by
  refine ⟨[], client_ok ?_⟩
  have t : ∀ (a : Act) (x : a.Resp), sentMsg ⟨a, x⟩ = none → ∀ m, sentMsg ⟨a, x⟩ = some m → m.magic = MAGIC := by
    intro a x h m hm; rw [h] at hm; cases hm
  constructor <;> intros <;> try first
    | trivial
    | exact t _ _ rfl _ ‹_›
  all_goals
    rename_i hx
    simp only [sentMsg, Option.some.injEq] at hx
    subst hx; rfl

/-! ### One round -/

theorem txRound_ok {buf : Bytes} {count : Nat} (hc : count < buf.length) (n : Nat) :
    ∃ count' taken, txRound buf count (n + 1) = .ok (count', taken) ∧ count < count' ∧ count' ≤ buf.length ∧
      buf.take count ++ taken = buf.take count' := by
  refine ⟨count + ((buf.drop count).take (n + 1)).length, (buf.drop count).take (n + 1), ?_, ?_, ?_, ?_⟩
  · unfold txRound sliceFrom
    rw [if_pos (by omega)]
    simp only
    rw [if_neg]
    simp; omega
  · simp; omega
  · simp; omega
  · generalize n + 1 = n'
    rw [List.take_add, List.length_take, List.length_drop]
    congr 1
    rw [List.take_eq_take_iff]; simp

theorem rxRound_ok {buf : Bytes} {count : Nat} (hb : buf = buf.take count ++ List.replicate (56 - count) 0) (hl : buf.length = 56)
    (hc : count < 56) {data : Bytes} (hd : data ≠ []) (n : Nat) :
    ∃ got buf' count', rxRound buf count data n = .ok (buf', count', data.drop got.length) ∧ got = data.take got.length ∧ got ≠ [] ∧
      count' = count + got.length ∧ count' ≤ 56 ∧ buf'.length = 56 ∧
      buf' = buf.take count ++ got ++ List.replicate (56 - count') 0 := by
  have hgl : (kernelRead data (buf.length - count) n).length = min (min (n + 1) (56 - count)) data.length := by
    simp [kernelRead, hl]
  have hdl : 0 < data.length := List.length_pos_iff.2 hd
  refine ⟨kernelRead data (buf.length - count) n, buf.take count ++ kernelRead data (buf.length - count) n ++
    List.replicate (56 - (count + (kernelRead data (buf.length - count) n).length)) 0, _, ?_, ?_, ?_, rfl, ?_, ?_, rfl⟩
  · unfold rxRound
    have h1 : writeAt buf count (kernelRead data (buf.length - count) n) = .ok (buf.take count ++ kernelRead data (buf.length - count) n ++
        List.replicate (56 - (count + (kernelRead data (buf.length - count) n).length)) 0) := by
      generalize kernelRead data (buf.length - count) n = g at hgl
      unfold writeAt
      rw [if_pos (by omega)]
      congr 2
      have h2 : buf.drop (count + g.length) = (buf.take count ++ List.replicate (56 - count) 0).drop (count + g.length) := by rw [← hb]
      rw [h2, List.drop_append, List.drop_eq_nil_of_le (by simp; omega), List.nil_append, List.drop_replicate]
      congr 1
      simp only [List.length_take, hl]
      omega
    simp only [h1]
    rw [if_neg]
    show ¬ ¬ _ ≤ 56
    omega
  · rw [hgl, kernelRead, List.take_eq_take_iff, hl]; omega
  · intro h0
    rw [h0] at hgl
    simp at hgl
    omega
  · omega
  · rw [List.length_append, List.length_append, List.length_replicate, List.length_take, hgl, hl]; omega

/-- Steps taken for the message being sent or received. -/
def ioCount : Io → Nat
  | .idle => 0
  | .tx _ c => 1 + c
  | .rx _ c => 1 + c

theorem ioCount_le {s : Side} (h : IoOk s) : ioCount s.io ≤ 56 := by
  obtain ⟨p, io⟩ := s
  cases io with
  | idle => simp [ioCount]
  | tx b c => obtain ⟨_, _, _, _, _, h⟩ := h; simp only [ioCount]; omega
  | rx b c => obtain ⟨_, _, _, _, h⟩ := h; simp only [ioCount]; omega

theorem txPart_lt {s : Side} (h : IoOk s) : (txPart s.io).length < 56 := by
  obtain ⟨p, io⟩ := s
  cases io with
  | idle => simp [txPart]
  | tx b c => obtain ⟨_, _, _, _, _, h⟩ := h; simp only [txPart, List.length_take]; omega
  | rx b c => simp [txPart]

theorem wireOf_flat_length {q : List Message} (hq : ∀ m ∈ q, m.magic = MAGIC) : (q.flatMap wireOf).length = 56 * q.length := by
  induction q with
  | nil => rfl
  | cons m q ih =>
    have h1 : (wireOf m).length = 56 := (msg_codec m (hq m (by simp))).1
    have h2 := ih (fun m h => hq m (List.mem_cons_of_mem _ h))
    simp only [List.flatMap_cons, List.length_append, List.length_cons, h1, h2]
    omega

/-- What a step of sending or receiving means for the messages `qi` that wait to be received (followed by the part `pi` of the next one). -/
inductive IoSim (closed : Bool) (s : Side) (i o : Bytes) (qi : List Message) (pi : Bytes) (s' : Side) (i' o' : Bytes) : Prop where
  | stutter (d : Bytes) (prog : s'.prog = s.prog) (ok : IoOk s') (rx : rxPart s'.io ++ i' = rxPart s.io ++ i) (out : o' = o ++ d)
      (tx : txPart s'.io = txPart s.io ++ d) (more : ioCount s.io + 1 ≤ ioCount s'.io)
  | sent (d : Bytes) (m : Message) (k : Bool → Prog Unit) (prog : s.prog = .act (.send m) k) (next : s' = ⟨k true, .idle⟩) (rx : rxPart s.io = [])
      (inp : i' = i) (out : o' = o ++ d) (tx : txPart s.io ++ d = wireOf m)
  | received (m : Message) (k : RecvOut → Prog Unit) (rest : List Message) (prog : s.prog = .act .recv k) (next : s' = ⟨k (.msg m), .idle⟩)
      (queue : qi = m :: rest) (inp : i' = rest.flatMap wireOf ++ pi) (out : o' = o) (tx : txPart s.io = [])
  | eof (k : RecvOut → Prog Unit) (prog : s.prog = .act .recv k) (ended : closed = true) (none : qi = []) (tx : txPart s.io = [])

theorem io_sim {closed : Bool} {s s' : Side} {i o i' o' : Bytes} (h : IoStep closed s i o s' i' o') (hok : IoOk s) (hm : SendsMagic s.prog)
    {qi : List Message} (hq : ∀ m ∈ qi, m.magic = MAGIC) {pi : Bytes} (hp : pi.length < 56) (hi : rxPart s.io ++ i = qi.flatMap wireOf ++ pi) :
    IoSim closed s i o qi pi s' i' o' := by
  cases h with
  | @sendStart m k buf _ _ hser =>
    have hmag := SendsMagic_msg hm
    obtain ⟨e, hl⟩ := C01_serialize_layout m hmag
    rw [hser] at e
    injection e with e
    refine .stutter [] rfl ⟨m, k, rfl, e, by rw [e, hl], by omega⟩ rfl (by simp) (by simp [txPart]) (by simp [ioCount])
  | @write m k buf count _ _ n count' taken hr hne =>
    obtain ⟨m', k', hpr, hb, hl, hc⟩ := hok
    obtain ⟨c2, t2, e, h1, h2, h3⟩ := txRound_ok (buf := buf) (count := count) (by omega) n
    rw [hr] at e
    injection e with e
    injection e with e1 e2
    subst e1; subst e2
    refine .stutter taken rfl ⟨m', k', hpr, hb, hl, by omega⟩ rfl rfl h3.symm (by simp only [ioCount]; omega)
  | @writeEnd m k buf count _ _ n count' taken hr hne =>
    obtain ⟨m', k', hpr, hb, hl, hc⟩ := hok
    obtain ⟨c2, t2, e, h1, h2, h3⟩ := txRound_ok (buf := buf) (count := count) (by omega) n
    rw [hr] at e
    injection e with e
    injection e with e1 e2
    subst e1; subst e2
    refine .sent taken m k rfl rfl rfl rfl rfl ?_
    injection hpr with hpr _
    injection hpr with hpr
    rw [hpr, ← hb]
    simp only [txPart]
    rw [h3, hne, List.take_length]
  | @writePanic m k buf count _ _ n hr =>
    obtain ⟨m', k', hpr, hb, hl, hc⟩ := hok
    obtain ⟨c2, t2, e, -⟩ := txRound_ok (buf := buf) (count := count) (by omega) n
    rw [hr] at e; cases e
  | @recvStart k _ _ =>
    refine .stutter [] rfl ⟨k, rfl, by decide, by decide, by decide⟩ (by simp [rxPart]) (by simp) rfl (by simp [ioCount])
  | @read k buf count _ _ n buf' count' _ hne hr hc' =>
    obtain ⟨k', hpr, hb, hl, hc⟩ := hok
    obtain ⟨got, b2, c2, e, h1, h2, h3, h4, h5, h6⟩ := rxRound_ok hb hl hc hne n
    rw [hr] at e
    injection e with e
    injection e with e1 e2
    injection e2 with e2 e3
    subst e1; subst e2; subst e3
    have hpos : 0 < got.length := List.length_pos_iff.2 h2
    have hc'' : count' ≠ 56 := hc'
    have htk : buf'.take count' = buf.take count ++ got := by
      rw [h6, List.take_left']
      rw [List.length_append, List.length_take]; omega
    refine .stutter [] rfl ⟨k, rfl, by rw [htk]; exact h6, h5, by omega⟩ ?_ (by simp) rfl (by simp only [ioCount]; omega)
    simp only [rxPart]
    rw [htk, List.append_assoc]
    congr 1
    rw [← List.take_append_drop got.length i, ← h1]
    simp
  | @readEnd k buf count _ _ n buf' count' _ m hne hr hc' hdec =>
    obtain ⟨k', hpr, hb, hl, hc⟩ := hok
    obtain ⟨got, b2, c2, e, h1, h2, h3, h4, h5, h6⟩ := rxRound_ok hb hl hc hne n
    rw [hr] at e
    injection e with e
    injection e with e1 e2
    injection e2 with e2 e3
    subst e1; subst e2; subst e3
    have hc'' : count' = 56 := hc'
    have h7 : buf' ++ i.drop got.length = qi.flatMap wireOf ++ pi := by
      rw [← hi, h6, hc'']
      simp only [rxPart, Nat.sub_self, List.replicate_zero, List.append_nil, List.append_assoc]
      congr 1
      conv => rhs; rw [← List.take_append_drop got.length i, ← h1]
    cases qi with
    | nil =>
      simp only [List.flatMap_nil, List.nil_append] at h7
      rw [← h7, List.length_append] at hp; omega
    | cons m' rest =>
      obtain ⟨hwl, hwd⟩ := msg_codec m' (hq m' (by simp))
      simp only [List.flatMap_cons, List.append_assoc] at h7
      obtain ⟨h8, h9⟩ := List.append_inj h7 (by rw [h5, hwl]; rfl)
      rw [h8, hwd] at hdec
      injection hdec with hdec
      subst hdec
      exact .received m' k rest rfl rfl rfl h9 rfl rfl
  | @readBad k buf count _ _ n buf' count' _ hne hr hc' hdec =>
    obtain ⟨k', hpr, hb, hl, hc⟩ := hok
    obtain ⟨got, b2, c2, e, h1, h2, h3, h4, h5, h6⟩ := rxRound_ok hb hl hc hne n
    rw [hr] at e
    injection e with e
    injection e with e1 e2
    injection e2 with e2 e3
    subst e1; subst e2; subst e3
    have hc'' : count' = 56 := hc'
    have h7 : buf' ++ i.drop got.length = qi.flatMap wireOf ++ pi := by
      rw [← hi, h6, hc'']
      simp only [rxPart, Nat.sub_self, List.replicate_zero, List.append_nil, List.append_assoc]
      congr 1
      conv => rhs; rw [← List.take_append_drop got.length i, ← h1]
    cases qi with
    | nil =>
      simp only [List.flatMap_nil, List.nil_append] at h7
      rw [← h7, List.length_append] at hp; omega
    | cons m' rest =>
      obtain ⟨hwl, hwd⟩ := msg_codec m' (hq m' (by simp))
      simp only [List.flatMap_cons, List.append_assoc] at h7
      obtain ⟨h8, h9⟩ := List.append_inj h7 (by rw [h5, hwl]; rfl)
      rw [h8, hwd] at hdec
      cases hdec
  | @readPanic k buf count _ _ n hne hr =>
    exfalso
    obtain ⟨k', hpr, hb, hl, hc⟩ := hok
    obtain ⟨got, b2, c2, e, h1, h2, h3, h4, h5, h6⟩ := rxRound_ok hb hl hc hne n
    rw [e] at hr
    rcases hr with hr | ⟨buf', count', i', hr, hc', hdec⟩
    · cases hr
    · injection hr with hr
      injection hr with e1 e2
      injection e2 with e2 e3
      subst e1; subst e2; subst e3
      have hc'' : c2 = 56 := hc'
      have h7 : b2 ++ i.drop got.length = qi.flatMap wireOf ++ pi := by
        rw [← hi, h6, hc'']
        simp only [rxPart, Nat.sub_self, List.replicate_zero, List.append_nil, List.append_assoc]
        congr 1
        conv => rhs; rw [← List.take_append_drop got.length i, ← h1]
      cases qi with
      | nil =>
        simp only [List.flatMap_nil, List.nil_append] at h7
        rw [← h7, List.length_append] at hp; omega
      | cons m' rest =>
        obtain ⟨hwl, hwd⟩ := msg_codec m' (hq m' (by simp))
        simp only [List.flatMap_cons, List.append_assoc] at h7
        obtain ⟨h8, h9⟩ := List.append_inj h7 (by rw [h5, hwl]; rfl)
        rw [h8, hwd] at hdec
        cases hdec
  | @readEof k buf count _ he =>
    obtain ⟨k', hpr, hb, hl, hc⟩ := hok
    refine .eof k rfl he ?_ rfl
    cases qi with
    | nil => rfl
    | cons m rest =>
      exfalso
      have h1 := congrArg List.length hi
      have h2 := wireOf_flat_length hq
      simp only [rxPart, List.append_nil, List.length_append, List.length_take, List.length_cons] at h1 h2
      omega

/-- A side that is sending, or is receiving and has something to read, can go on. -/
theorem io_progress_send {closed : Bool} {m : Message} {k} {io : Io} (hok : IoOk ⟨.act (.send m) k, io⟩) (hm : SendsMagic (.act (.send m) k))
    (i o : Bytes) : ∃ s' i' o', IoStep closed ⟨.act (.send m) k, io⟩ i o s' i' o' := by
  cases io with
  | idle => exact ⟨_, _, _, .sendStart (C01_serialize_layout m (SendsMagic_msg hm)).1⟩
  | tx b c =>
    obtain ⟨m', k', hpr, hb, hl, hc⟩ := hok
    obtain ⟨c2, t2, e, -⟩ := txRound_ok (buf := b) (count := c) (by omega) 0
    by_cases h : c2 = b.length
    · exact ⟨_, _, _, .writeEnd e h⟩
    · exact ⟨_, _, _, .write e h⟩
  | rx b c => obtain ⟨k', hpr, -⟩ := hok; simp at hpr

theorem io_progress_recv {closed : Bool} {k} {io : Io} (hok : IoOk ⟨.act .recv k, io⟩) {i : Bytes} (o : Bytes) (hi : io = .idle ∨ i ≠ []) :
    ∃ s' i' o', IoStep closed ⟨.act .recv k, io⟩ i o s' i' o' := by
  cases io with
  | idle => exact ⟨_, _, _, .recvStart⟩
  | tx b c => obtain ⟨_, k', hpr, -⟩ := hok; simp at hpr
  | rx b c =>
    have hne : i ≠ [] := by rcases hi with h | h; · cases h
                            · exact h
    obtain ⟨k', hpr, hb, hl, hc⟩ := hok
    obtain ⟨got, b2, c2, e, -⟩ := rxRound_ok hb hl hc hne 0
    by_cases h : c2 = MSG_SIZE
    · cases hd : Message.deserialize b2 with
      | ok m => exact ⟨_, _, _, .readEnd hne e h hd⟩
      | err => exact ⟨_, _, _, .readBad hne e h hd⟩
      | panic => exact ⟨_, _, _, .readPanic (n := 0) hne (.inr ⟨_, _, _, e, h, hd⟩)⟩
    · exact ⟨_, _, _, .read hne e h⟩

end Letmein.Props
