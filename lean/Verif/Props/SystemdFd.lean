import Verif.Model.SystemdFd
import Verif.Model.Main
import Verif.Props.Daemon
import Verif.Props.Main

/-!
# C81: which descriptors from systemd are recognised

The specification describes what a descriptor refers to, and what Linux answers about it (inode(7), socket(7), unix(7)).
-/

namespace Letmein.Spec
open Letmein

/-- File types of Linux (inode(7)). -/
inductive FileType where
  | fifo | chr | dir | blk | reg | lnk | sock

/-- The file type's bits of `st_mode` (inode(7)). -/
def FileType.bits : FileType → Nat
  | .fifo => 0o010000
  | .chr => 0o020000
  | .dir => 0o040000
  | .blk => 0o060000
  | .reg => 0o100000
  | .lnk => 0o120000
  | .sock => 0o140000

/-- The local address of a socket. -/
inductive SockAddr where
  /-- bound to this port -/
  | inet (port : UInt16)
  | inet6 (port : UInt16)
  /-- bound to a path of this many bytes -/
  | unixPath (n : Nat)
  /-- bound to an abstract name of this many bytes, the leading zero included -/
  | unixAbstract (n : Nat)
  | unixUnnamed
  /-- another family -/
  | other (family len : Nat)

/-- What a descriptor refers to. `perm`: the lower twelve bits of `st_mode`. -/
inductive FdObject where
  | closed
  | file (type : FileType) (perm : Nat)
  | socket (perm type protocol : Nat) (addr : SockAddr)

/-- Possible objects: permissions have twelve bits, a file that is not a socket is not of type socket, other families have other numbers. -/
def FdObject.Wf : FdObject → Prop
  | .closed => True
  | .file t perm => perm < 0o10000 ∧ t ≠ .sock
  | .socket perm _ _ (.other f _) => perm < 0o10000 ∧ f ≠ 1 ∧ f ≠ 2 ∧ f ≠ 10
  | .socket perm _ _ _ => perm < 0o10000

/-- Family and length of an address as `getsockname` gives them (ip(7), ipv6(7), unix(7)). -/
def SockAddr.name : SockAddr → Nat × Nat
  | .inet _ => (2, 16)
  | .inet6 _ => (10, 28)
  | .unixPath n => (1, 2 + n + 1)
  | .unixAbstract n => (1, 2 + n)
  | .unixUnnamed => (1, 2)
  | .other f n => (f, n)

/-- What Linux answers about the object. -/
def FdObject.answers : FdObject → FdAnswers
  | .closed => ⟨none, none, none⟩
  | .file t perm => ⟨some (t.bits + perm), none, none⟩
  | .socket perm type _ addr => ⟨some (FileType.sock.bits + perm), some (type, 4), some addr.name⟩

/-- The object is an Internet socket of this type (1: stream, 2: datagram). -/
def InetSocket (type : Nat) (o : FdObject) : Prop := ∃ perm proto addr, o = .socket perm type proto addr ∧ ∃ port, addr = .inet port ∨ addr = .inet6 port

/-- The object is a Unix stream socket. -/
def UnixStream (o : FdObject) : Prop := ∃ perm proto addr, o = .socket perm 1 proto addr ∧
  ((∃ n, addr = .unixPath n) ∨ (∃ n, addr = .unixAbstract n) ∨ addr = .unixUnnamed)

/-- The object is a Unix stream socket with a long enough name. -/
def UnixStreamLong (o : FdObject) : Prop := ∃ perm proto addr, o = .socket perm 1 proto addr ∧
  ((∃ n, addr = .unixPath n ∧ 13 ≤ n) ∨ (∃ n, addr = .unixAbstract n ∧ 14 ≤ n))

end Letmein.Spec

namespace Letmein.Props
open Letmein Spec

/-- Masking the mode with `S_IFMT` leaves the file type. -/
theorem mode_mask (t : FileType) {perm : Nat} (h : perm < 0o10000) : (t.bits + perm) &&& S_IFMT = t.bits := by
  have key : ∀ k, k < 16 → (k * 4096 + perm) &&& (15 * 4096) = k * 4096 := by
    intro k hk
    apply Nat.eq_of_testBit_eq
    intro i
    have e1 : k * 4096 + perm = 2 ^ 12 * k + perm := congrArg (· + perm) (Nat.mul_comm _ _)
    have e2 : 15 * 4096 = 2 ^ 12 * 15 := rfl
    have e3 : k * 4096 = 2 ^ 12 * k := Nat.mul_comm _ _
    rw [e1, e2, e3, Nat.testBit_and, Nat.testBit_two_pow_mul_add k h i, Nat.testBit_two_pow_mul, Nat.testBit_two_pow_mul]
    by_cases hi : i < 12
    · rw [if_pos hi]
      simp [show ¬ i ≥ 12 by omega]
    · rw [if_neg hi]
      simp only [show i ≥ 12 by omega, decide_true, Bool.true_and]
      rw [← Nat.testBit_and]
      have : k &&& 15 = k := by
        have := Nat.and_two_pow_sub_one_eq_mod k 4
        simp only [show 2 ^ 4 - 1 = 15 by rfl] at this
        rw [this]; exact Nat.mod_eq_of_lt hk
      rw [this]
  cases t
  · exact key 1 (by omega)
  · exact key 2 (by omega)
  · exact key 4 (by omega)
  · exact key 6 (by omega)
  · exact key 8 (by omega)
  · exact key 10 (by omega)
  · exact key 12 (by omega)

/-- The family found for an address of this family and length. -/
def famOf (f len : Nat) : Option SockFamily := if len ≥ 16 then some (SockFamily.ofRaw f) else none

theorem famOf_eq {f len : Nat} {x : SockFamily} : famOf f len = some x ↔ 16 ≤ len ∧ SockFamily.ofRaw f = x := by
  unfold famOf
  by_cases h : len ≥ 16
  · rw [if_pos h]; simp; omega
  · rw [if_neg h]; simp; omega

/-- What the inspection finds out about a socket. -/
theorem inspect_socket {perm type proto : Nat} {addr : SockAddr} (h : perm < 0o10000) (fd : Nat) :
    PassedFd.inspect fd (FdObject.answers (.socket perm type proto addr)) =
      { fd, isSocket := true, sockType := some (SockType.ofRaw type)
        family := famOf addr.name.1 addr.name.2 } := by
  have hm := mode_mask .sock h
  unfold PassedFd.inspect FdObject.answers isSocket getSocketType getSocketFamily
  simp only [hm]
  rw [if_pos (show (4 : Nat) ≥ SIZEOF_INT by decide)]
  congr 1
  unfold famOf
  by_cases hl : addr.name.2 ≥ 16
  · rw [if_pos (show addr.name.2 ≥ SIZEOF_SOCKADDR from hl), if_pos hl]; rfl
  · rw [if_neg (show ¬ addr.name.2 ≥ SIZEOF_SOCKADDR from hl), if_neg hl]; rfl

/-- What is not a socket is found not to be one. -/
theorem inspect_not_socket {o : FdObject} (hw : o.Wf) (h : ∀ perm type proto addr, o ≠ .socket perm type proto addr) (fd : Nat) :
    (PassedFd.inspect fd o.answers).isSocket = false := by
  cases o with
  | closed => rfl
  | socket a b c d => exact absurd rfl (h a b c d)
  | file t perm =>
    have hm := mode_mask t hw.1
    show (match some (t.bits + perm) with | some mode => mode &&& S_IFMT == S_IFSOCK | none => false) = false
    simp only [hm]
    have := hw.2
    cases t <;> first | rfl | exact absurd rfl this

theorem ofRaw_stream (t : Nat) : SockType.ofRaw t = .stream ↔ t = 1 := by
  unfold SockType.ofRaw SOCK_STREAM SOCK_DGRAM
  by_cases h : t = 1
  · simp [h]
  · by_cases h2 : t = 2 <;> simp [h, h2]

theorem ofRaw_dgram (t : Nat) : SockType.ofRaw t = .dgram ↔ t = 2 := by
  unfold SockType.ofRaw SOCK_STREAM SOCK_DGRAM
  by_cases h : t = 1
  · simp [h]
  · by_cases h2 : t = 2 <;> simp [h, h2]

theorem ofRaw_other {f : Nat} (f1 : f ≠ 1) (f2 : f ≠ 2) (f3 : f ≠ 10) : SockFamily.ofRaw f = .other := by
  unfold SockFamily.ofRaw INET46 SA_INET SA_INET6 SA_UNIX
  simp [f1, f2, f3]

/-- The inspection recognises Internet sockets of both families. -/
theorem inspect_inet {o : FdObject} (hw : o.Wf) (fd : Nat) (type : SockType) (raw : Nat) (ht : ∀ t, SockType.ofRaw t = type ↔ t = raw) :
    ((PassedFd.inspect fd o.answers).isSocket = true ∧ (PassedFd.inspect fd o.answers).sockType = some type ∧
      ((PassedFd.inspect fd o.answers).family = some .inet ∨ (PassedFd.inspect fd o.answers).family = some .inet6)) ↔ InetSocket raw o := by
  constructor
  · rintro ⟨h1, h2, h3⟩
    cases o with
    | closed => cases h1
    | file t perm => rw [inspect_not_socket hw (by intros; simp)] at h1; cases h1
    | socket perm t proto addr =>
      have hp : perm < 0o10000 := by cases addr <;> first | exact hw | exact hw.1
      rw [inspect_socket hp] at h2 h3
      have h2 := (ht t).1 (Option.some.inj h2)
      subst h2
      refine ⟨perm, proto, addr, rfl, ?_⟩
      simp only [famOf_eq] at h3
      cases addr with
      | inet port => exact ⟨port, .inl rfl⟩
      | inet6 port => exact ⟨port, .inr rfl⟩
      | unixPath n => rcases h3 with ⟨_, h3⟩ | ⟨_, h3⟩ <;> cases h3
      | unixAbstract n => rcases h3 with ⟨_, h3⟩ | ⟨_, h3⟩ <;> cases h3
      | unixUnnamed => rcases h3 with ⟨_, h3⟩ | ⟨_, h3⟩ <;> cases h3
      | other f n =>
        obtain ⟨_, f1, f2, f3⟩ := hw
        have hf : SockFamily.ofRaw f = .other := ofRaw_other f1 f2 f3
        simp only [SockAddr.name] at h3
        rw [hf] at h3
        rcases h3 with ⟨_, h3⟩ | ⟨_, h3⟩ <;> cases h3
  · rintro ⟨perm, proto, addr, rfl, port, ha⟩
    have hp : perm < 0o10000 := by rcases ha with rfl | rfl <;> exact hw
    rw [inspect_socket hp]
    refine ⟨rfl, congrArg some ((ht raw).2 rfl), ?_⟩
    rcases ha with rfl | rfl
    · exact .inl rfl
    · exact .inr rfl

/-- The inspection recognises Unix stream sockets with long names. -/
theorem inspect_unix {o : FdObject} (hw : o.Wf) (fd : Nat) :
    ((PassedFd.inspect fd o.answers).isSocket = true ∧ (PassedFd.inspect fd o.answers).sockType = some .stream ∧
      (PassedFd.inspect fd o.answers).family = some .unix) ↔ UnixStreamLong o := by
  constructor
  · rintro ⟨h1, h2, h3⟩
    cases o with
    | closed => cases h1
    | file t perm => rw [inspect_not_socket hw (by intros; simp)] at h1; cases h1
    | socket perm t proto addr =>
      have hp : perm < 0o10000 := by cases addr <;> first | exact hw | exact hw.1
      rw [inspect_socket hp] at h2 h3
      have h2 := (ofRaw_stream t).1 (Option.some.inj h2)
      subst h2
      refine ⟨perm, proto, addr, rfl, ?_⟩
      simp only [famOf_eq] at h3
      cases addr with
      | inet _ => cases h3.2
      | inet6 _ => cases h3.2
      | unixPath n => exact .inl ⟨n, rfl, by have := h3.1; simp only [SockAddr.name] at this; omega⟩
      | unixAbstract n => exact .inr ⟨n, rfl, by have := h3.1; simp only [SockAddr.name] at this; omega⟩
      | unixUnnamed => exact absurd h3.1 (by decide)
      | other f n =>
        obtain ⟨_, f1, f2, f3⟩ := hw
        have h3 := h3.2
        simp only [SockAddr.name] at h3
        rw [ofRaw_other f1 f2 f3] at h3
        cases h3
  · rintro ⟨perm, proto, addr, rfl, ha⟩
    have hp : perm < 0o10000 := by rcases ha with ⟨_, rfl, _⟩ | ⟨_, rfl, _⟩ <;> exact hw
    rw [inspect_socket hp]
    refine ⟨rfl, rfl, ?_⟩
    simp only [famOf_eq]
    rcases ha with ⟨n, rfl, hn⟩ | ⟨n, rfl, hn⟩
    · exact ⟨by simp only [SockAddr.name]; omega, rfl⟩
    · exact ⟨by simp only [SockAddr.name]; omega, rfl⟩

theorem isTcp_iff {o : FdObject} (hw : o.Wf) (fd : Nat) : isTcpSocket (PassedFd.inspect fd o.answers) = true ↔ InetSocket 1 o := by
  rw [← inspect_inet hw fd .stream 1 ofRaw_stream]
  simp [isTcpSocket, and_assoc]

theorem isUdp_iff {o : FdObject} (hw : o.Wf) (fd : Nat) : isUdpSocket (PassedFd.inspect fd o.answers) = true ↔ InetSocket 2 o := by
  rw [← inspect_inet hw fd .dgram 2 ofRaw_dgram]
  simp [isUdpSocket, and_assoc]

theorem isUnix_iff {o : FdObject} (hw : o.Wf) (fd : Nat) : isUnixSocket (PassedFd.inspect fd o.answers) = true ↔ UnixStreamLong o := by
  rw [← inspect_unix hw fd]
  simp [isUnixSocket, and_assoc]

end Letmein.Props

namespace Letmein.Spec
open Letmein

/-- The socket that descriptor `fd`, referring to `o`, is for a program with these features. -/
inductive Recognised (feat : SystemdFeatures) : Nat × FdObject → SystemdSocket → Prop where
  | udp {fd o} : feat.udp = true → InetSocket 2 o → Recognised feat (fd, o) (.Udp fd)
  | tcp {fd o} : feat.tcp = true → InetSocket 1 o → Recognised feat (fd, o) (.Tcp fd)
  | unix {fd o} : feat.unix = true → UnixStreamLong o → Recognised feat (fd, o) (.Unix fd)

/-- Two lists of the same length, related element by element. -/
inductive Pairwise2 {α β : Type} (r : α → β → Prop) : List α → List β → Prop where
  | nil : Pairwise2 r [] []
  | cons {a b l m} : r a b → Pairwise2 r l m → Pairwise2 r (a :: l) (b :: m)

/-- What systemd passes: these descriptors, referring to these objects. -/
def passed (l : List (Nat × FdObject)) : SystemdEnv := { booted := true, fds := .ok (l.map fun p => PassedFd.inspect p.1 p.2.answers) }

/-- letmeind's build of letmein-systemd (`/repo/letmeind/Cargo.toml:28`). -/
def letmeindFeatures : SystemdFeatures := { udp := true, tcp := true, unix := false }

/-- letmeinfwd's build (`/repo/letmeinfwd/Cargo.toml:27`). -/
def letmeinfwdFeatures : SystemdFeatures := { udp := false, tcp := false, unix := true }

end Letmein.Spec

namespace Letmein.Props
open Letmein Spec

theorem classifyFd_iff {feat : SystemdFeatures} {p : Nat × FdObject} (hw : p.2.Wf) {s : SystemdSocket} :
    classifyFd feat (PassedFd.inspect p.1 p.2.answers) = .ok s ↔ Recognised feat p s := by
  obtain ⟨fd, o⟩ := p
  have hT := isTcp_iff hw fd
  have hU := isUdp_iff hw fd
  have hX := isUnix_iff hw fd
  have dis1 : InetSocket 1 o → ¬ InetSocket 2 o := by
    rintro ⟨_, _, _, rfl, _⟩ ⟨_, _, _, h, _⟩; cases h
  have dis2 : ∀ t, InetSocket t o → ¬ UnixStreamLong o := by
    rintro t ⟨_, _, _, rfl, _, ha⟩ ⟨_, _, _, h, hb⟩
    injection h with _ _ _ h
    subst h
    rcases ha with rfl | rfl <;> rcases hb with ⟨_, h, _⟩ | ⟨_, h, _⟩ <;> cases h
  have hfd : (PassedFd.inspect fd o.answers).fd = fd := rfl
  unfold classifyFd
  simp only at hT hU hX hw ⊢
  rw [hfd]
  constructor
  · intro h
    by_cases h1 : (feat.udp && isUdpSocket (PassedFd.inspect fd o.answers)) = true
    · rw [if_pos h1] at h
      injection h with h; subst h
      rw [Bool.and_eq_true, hU] at h1
      exact .udp h1.1 h1.2
    · rw [if_neg h1] at h
      by_cases h2 : (feat.tcp && isTcpSocket (PassedFd.inspect fd o.answers)) = true
      · rw [if_pos h2] at h
        injection h with h; subst h
        rw [Bool.and_eq_true, hT] at h2
        exact .tcp h2.1 h2.2
      · rw [if_neg h2] at h
        by_cases h3 : (feat.unix && isUnixSocket (PassedFd.inspect fd o.answers)) = true
        · rw [if_pos h3] at h
          injection h with h; subst h
          rw [Bool.and_eq_true, hX] at h3
          exact .unix h3.1 h3.2
        · rw [if_neg h3] at h; cases h
  · rintro (⟨hf, ho⟩ | ⟨hf, ho⟩ | ⟨hf, ho⟩)
    · rw [if_pos (by rw [Bool.and_eq_true, hU]; exact ⟨hf, ho⟩)]
    · rw [if_neg (by rw [Bool.and_eq_true, hU]; exact fun h => dis1 ho h.2), if_pos (by rw [Bool.and_eq_true, hT]; exact ⟨hf, ho⟩)]
    · rw [if_neg (by rw [Bool.and_eq_true, hU]; exact fun h => dis2 _ h.2 ho), if_neg (by rw [Bool.and_eq_true, hT]; exact fun h => dis2 _ h.2 ho),
        if_pos (by rw [Bool.and_eq_true, hX]; exact ⟨hf, ho⟩)]

/-- **C81** (partial: Unix sockets only with a name that is long enough, and Internet sockets of any protocol; see the negations). The sockets a program gets are
the passed descriptors, all of them and in their order, each as what it is; if one of them is anything else, the program gets an error. -/
theorem C81_recognised_partial {feat : SystemdFeatures} {l : List (Nat × FdObject)} (hw : ∀ p ∈ l, p.2.Wf) (ss : List SystemdSocket) :
    SystemdSocket.getAll feat (passed l) = .ok ss ↔ Pairwise2 (Recognised feat) l ss := by
  have e : SystemdSocket.getAll feat (passed l) = systemdSockets feat (l.map fun p => PassedFd.inspect p.1 p.2.answers) := by
    unfold SystemdSocket.getAll passed
    rw [if_pos rfl]; rfl
  rw [e]
  clear e
  induction l generalizing ss with
  | nil =>
    simp only [List.map_nil, systemdSockets, R.ok.injEq]
    exact ⟨fun h => h ▸ .nil, fun h => by cases h; rfl⟩
  | cons p l ih =>
    rw [List.map_cons, systemdSockets, R.bind_eq_ok]
    have hp := hw p (List.mem_cons_self ..)
    have ih := ih fun q hq => hw q (List.mem_cons_of_mem _ hq)
    constructor
    · rintro ⟨s, hs, h⟩
      rw [R.bind_eq_ok] at h
      obtain ⟨m, hm, h⟩ := h
      injection h with h
      subst h
      exact .cons ((classifyFd_iff hp).1 hs) ((ih m).1 hm)
    · intro h
      cases h with
      | cons h1 h2 =>
        refine ⟨_, (classifyFd_iff hp).2 h1, ?_⟩
        rw [(ih _).2 h2]; rfl

/-- The sockets of the shipped `letmeind.socket`: a TCP and a UDP socket, bound to port 5800 on all addresses. -/
def shippedLetmeind : List (Nat × FdObject) := [(3, .socket 0o777 1 6 (.inet6 5800)), (4, .socket 0o777 2 17 (.inet6 5800))]

/-- The socket of the shipped `letmeinfwd.socket`. -/
def shippedLetmeinfwd : List (Nat × FdObject) := [(3, .socket 0o777 1 0 (.unixPath "/run/letmeinfwd/letmeinfwd.sock".length))]

example : Pairwise2 (Recognised letmeindFeatures) shippedLetmeind [.Tcp 3, .Udp 4] :=
  .cons (.tcp rfl ⟨_, _, _, rfl, _, .inr rfl⟩) (.cons (.udp rfl ⟨_, _, _, rfl, _, .inr rfl⟩) .nil)

/-- C81: there is no panic, and an error exactly if one of the descriptors is not a socket the program knows. -/
theorem C81_error_iff {feat : SystemdFeatures} {l : List (Nat × FdObject)} (hw : ∀ p ∈ l, p.2.Wf) :
    SystemdSocket.getAll feat (passed l) ≠ .panic ∧
    (SystemdSocket.getAll feat (passed l) = .err ↔ ∃ p ∈ l, ∀ s, ¬ Recognised feat p s) := by
  have e : SystemdSocket.getAll feat (passed l) = systemdSockets feat (l.map fun p => PassedFd.inspect p.1 p.2.answers) := by
    unfold SystemdSocket.getAll passed
    rw [if_pos rfl]; rfl
  rw [e]
  clear e
  induction l with
  | nil => simp [systemdSockets]
  | cons p l ih =>
    have hp := hw p (List.mem_cons_self ..)
    obtain ⟨ih1, ih2⟩ := ih fun q hq => hw q (List.mem_cons_of_mem _ hq)
    rw [List.map_cons, systemdSockets]
    cases hc : classifyFd feat (PassedFd.inspect p.1 p.2.answers) with
    | ok s =>
      have hr := (classifyFd_iff hp).1 hc
      rw [R.bind_ok]
      constructor
      · intro h
        revert h
        cases hs : systemdSockets feat (l.map fun p => PassedFd.inspect p.1 p.2.answers) with
        | ok m => intro h; cases h
        | err => intro h; cases h
        | panic => exact absurd hs ih1
      · have : (systemdSockets feat (l.map fun p => PassedFd.inspect p.1 p.2.answers) >>= fun m => R.ok (s :: m)) = .err ↔
            systemdSockets feat (l.map fun p => PassedFd.inspect p.1 p.2.answers) = .err := by
          cases systemdSockets feat (l.map fun p => PassedFd.inspect p.1 p.2.answers) with
          | ok m => exact ⟨fun h => (by cases h), fun h => (by cases h)⟩
          | err => exact ⟨fun _ => rfl, fun _ => rfl⟩
          | panic => exact ⟨fun h => (by cases h), fun h => (by cases h)⟩
        rw [this, ih2]
        constructor
        · rintro ⟨q, hq, h⟩; exact ⟨q, List.mem_cons_of_mem _ hq, h⟩
        · rintro ⟨q, hq, h⟩
          rcases List.mem_cons.1 hq with rfl | hq
          · exact absurd hr (h s)
          · exact ⟨q, hq, h⟩
    | err =>
      refine ⟨fun h => (by cases h), fun _ => ⟨p, List.mem_cons_self .., fun s hs => ?_⟩, fun _ => rfl⟩
      rw [(classifyFd_iff hp).2 hs] at hc
      cases hc
    | panic =>
      exfalso
      unfold classifyFd at hc
      split at hc
      · cases hc
      · split at hc
        · cases hc
        · split at hc <;> cases hc

example : ∃ p ∈ [(3, FdObject.file .reg 0o644)], ∀ s, ¬ Recognised letmeinfwdFeatures p s := by
  refine ⟨_, List.mem_singleton.2 rfl, fun s h => ?_⟩
  cases h with
  | udp _ h => obtain ⟨_, _, _, h, _⟩ := h; cases h
  | tcp _ h => obtain ⟨_, _, _, h, _⟩ := h; cases h
  | unix _ h => obtain ⟨_, _, _, h, _⟩ := h; cases h

/-- C81: letmeinfwd started by systemd listens on the first descriptor passed, and this is a Unix stream socket; every other descriptor is one, too. -/
theorem C81_letmeinfwd {o : FwdOpts} {w : FwdWorld} (ho : IsOrder w.order) {k : Kernel} {p : FwdProc} (h : fwdMain o w = (k, .ok p))
    (hs : o.noSystemd = false) {l : List (Nat × FdObject)} (hw : ∀ p ∈ l, p.2.Wf) (hl : w.sockets = SystemdSocket.getAll letmeinfwdFeatures (passed l)) :
    l ≠ [] ∧ ∀ q ∈ l, UnixStream q.2 := by
  obtain ⟨ids, d, conf, fw, r, hids, rfl, hd, hload, _, hr, _, rfl⟩ := fwdMain_ok h
  unfold fwdReady at hr
  simp only [R.bind_eq_ok] at hr
  obtain ⟨fs1, hlis, _⟩ := hr
  unfold fwdListen at hlis
  rw [hs] at hlis
  simp only [Bool.not_false, if_true] at hlis
  have hok : ∃ fd rest, w.sockets = .ok (.Unix fd :: rest) := by
    split at hlis
    · exact ⟨_, _, by assumption⟩
    · cases hlis
    · cases hlis
  obtain ⟨fd, rest, hok⟩ := hok
  rw [hl, C81_recognised_partial hw] at hok
  have huni : ∀ {l : List (Nat × FdObject)} {m}, Pairwise2 (Recognised letmeinfwdFeatures) l m → ∀ q ∈ l, UnixStream q.2 := by
    intro l m h
    induction h with
    | nil => intro q hq; cases hq
    | cons h1 _ ih =>
      intro q hq
      rcases List.mem_cons.1 hq with rfl | hq
      · cases h1 with
        | udp h => cases h
        | tcp h => cases h
        | unix _ h =>
          obtain ⟨perm, proto, addr, h, ha⟩ := h
          refine ⟨perm, proto, addr, h, ?_⟩
          rcases ha with ⟨n, h, _⟩ | ⟨n, h, _⟩
          · exact .inl ⟨n, h⟩
          · exact .inr (.inl ⟨n, h⟩)
      · exact ih q hq
  refine ⟨?_, huni hok⟩
  rintro rfl
  cases hok

/-- letmeinfwd's command line. -/
def shippedFwdOpts : FwdOpts :=
  { config := "/opt/letmein/etc/letmeind.conf".toList, limit := 8, noSystemd := false, seccomp := none, testMode := false }

/-- letmeinfwd started by systemd with the shipped unit. -/
def shippedFwdWorld : FwdWorld := { fwdWorld with sockets := SystemdSocket.getAll letmeinfwdFeatures (passed shippedLetmeinfwd) }

example : ∃ k p, fwdMain shippedFwdOpts shippedFwdWorld = (k, .ok p) := by
  have h : (match fwdMain shippedFwdOpts shippedFwdWorld with | (_, .ok _) => true | _ => false) = true := by decide +kernel
  split at h
  · rename_i k p hp
    exact ⟨k, p, hp⟩
  · cases h

/-- C81: with the shipped `letmeinfwd.socket` letmeinfwd gets its socket. -/
theorem C81_shipped_letmeinfwd : SystemdSocket.getAll letmeinfwdFeatures (passed shippedLetmeinfwd) = .ok [.Unix 3] := by
  refine (C81_recognised_partial ?_ _).2 (.cons (.unix rfl ⟨_, _, _, rfl, .inl ⟨_, rfl, by decide⟩⟩) .nil)
  intro p hp
  rcases List.mem_singleton.1 hp with rfl
  show (0o777 : Nat) < 0o10000
  decide

/-- C81: with the shipped `letmeind.socket` and both protocols configured, letmeind serves both on the passed sockets. -/
theorem C81_shipped_letmeind (port : ControlPort) (ht : port.tcp = true) (hu : port.udp = true) (b1 b2 : Bool) :
    serverNew port false (SystemdSocket.getAll letmeindFeatures (passed shippedLetmeind)) (fun _ => true) true b1 b2 =
      .ok { tcp := some (.systemd 3), udp := some (.systemd 4) } := by
  have h : SystemdSocket.getAll letmeindFeatures (passed shippedLetmeind) = .ok [.Tcp 3, .Udp 4] := by
    refine (C81_recognised_partial ?_ _).2
      (.cons (.tcp rfl ⟨_, _, _, rfl, _, .inr rfl⟩) (.cons (.udp rfl ⟨_, _, _, rfl, _, .inr rfl⟩) .nil))
    intro p hp
    simp only [shippedLetmeind, List.mem_cons, List.not_mem_nil, or_false] at hp
    rcases hp with rfl | rfl <;> exact (by decide : (0o777 : Nat) < 0o10000)
  rw [h]
  obtain ⟨pt, t, u⟩ := port
  simp only at ht hu
  subst ht hu
  rfl

/-- C81 is false: a Unix stream socket with a path of up to twelve bytes (or an abstract name of up to thirteen, or no name) is not recognised, and letmeinfwd
does not start; `/run/lm.sock` is such a path. -/
theorem C81_short_name_negation :
    (∀ {o : FdObject}, o.Wf → UnixStream o → ¬ UnixStreamLong o → ∀ fd rest, (∀ p ∈ rest, FdObject.Wf p.2) →
      SystemdSocket.getAll letmeinfwdFeatures (passed ((fd, o) :: rest)) = .err) ∧
    UnixStream (.socket 0o777 1 0 (.unixPath "/run/lm.sock".length)) ∧ ¬ UnixStreamLong (.socket 0o777 1 0 (.unixPath "/run/lm.sock".length)) := by
  refine ⟨?_, ⟨_, _, _, rfl, .inl ⟨_, rfl⟩⟩, ?_⟩
  · intro o hw hu hn fd rest hr
    refine (C81_error_iff ?_).2.2 ⟨(fd, o), List.mem_cons_self .., ?_⟩
    · intro p hp
      rcases List.mem_cons.1 hp with rfl | hp
      · exact hw
      · exact hr p hp
    · intro s h
      cases h with
      | udp h => cases h
      | tcp h => cases h
      | unix _ h => exact hn h
  · rintro ⟨perm, proto, addr, h, ha⟩
    injection h with _ _ _ h
    subst h
    rcases ha with ⟨n, h, hn⟩ | ⟨n, h, hn⟩
    · injection h with h
      subst h
      exact absurd hn (by decide)
    · cases h

/-- C81 is false: the protocol is not looked at. An SCTP socket (protocol 132) is taken for a TCP socket. -/
theorem C81_protocol_negation :
    SystemdSocket.getAll letmeindFeatures (passed [(3, .socket 0o777 1 132 (.inet 5800))]) = .ok [.Tcp 3] := by
  refine (C81_recognised_partial ?_ _).2 (.cons (.tcp rfl ⟨_, _, _, rfl, _, .inl rfl⟩) .nil)
  intro p hp
  rcases List.mem_singleton.1 hp with rfl
  exact (by decide : (0o777 : Nat) < 0o10000)

/-- C81 is false: the port is not looked at. With another control port in the configuration, letmeind serves the port of the passed sockets (5800)
and not the configured one. -/
theorem C81_port_negation : ∃ port : ControlPort, port.port ≠ 5800 ∧
    serverNew port false (SystemdSocket.getAll letmeindFeatures (passed shippedLetmeind)) (fun _ => true) true true true =
      .ok { tcp := some (.systemd 3), udp := some (.systemd 4) } :=
  ⟨{ port := 5900, tcp := true, udp := true }, by decide, C81_shipped_letmeind _ rfl rfl _ _⟩

end Letmein.Props
