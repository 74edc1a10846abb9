import Verif.Model.UdpJoint
import Verif.Model.Session

/-!
# The UDP server with all its sessions

The dispatcher of `Verif.Model.Udp` with one session program per accepted connection: `/repo/letmeind/src/main.rs:157-190`
(accept a connection, spawn a task that runs `Protocol::run` and closes the connection) and
`/repo/letmeind/src/protocol.rs:119-237`. The tasks are interleaved arbitrarily. What the network delivers, what the random
generator and letmeinfwd answer, and when receives time out is arbitrary. A panic aborts the process, so nothing happens after it.
-/

namespace Letmein

/-- `/repo/letmeind/src/main.rs:165-190` a session's task: the program that remains, and what it has done so far. -/
structure BusyTask where
  prog : Prog Unit
  done : List Prog.Ev

/-- What passes between socket, dispatcher and sessions, in the order in which it happens. -/
inductive BusyEv where
  /-- the kernel hands out a datagram -/
  | rx (src : SocketAddr) (data : Bytes)
  /-- a session, with this peer, is given a datagram -/
  | got (sid : Nat) (peer : SocketAddr) (data : Bytes)
  /-- a session puts a datagram for this address on the wire -/
  | tx (sid : Nat) (dst : SocketAddr) (data : Bytes)
  deriving DecidableEq

/-- `/repo/letmeind/src/main.rs:100-190` the UDP server: dispatcher, tasks (by session number), and the log. -/
structure UdpBusy where
  sock : UdpSrv
  tasks : List BusyTask
  log : List BusyEv

/-- `/repo/letmeind/src/server.rs:118-207` a newly started server. -/
def UdpBusy.new (maxConn : Nat) : UdpBusy := { sock := UdpSrv.new maxConn, tasks := [], log := [] }

/-- `/repo/letmeind/src/main.rs:165-179` an accepted connection gets a task. -/
def busyNewTask (mac : MacFn) (conf : Config) : UdpOut → List BusyTask
  | .accepted p => [{ prog := session mac conf p.ip, done := [] }]
  | _ => []

/-- `/repo/letmein-proto/src/socket.rs:80-92` the datagram handed out. -/
def busyRead : SockIn → List BusyEv
  | .dgram src data => [.rx src data]
  | _ => []

/-- `/repo/letmein-proto/src/socket.rs:284-297` the datagram taken from the queue. -/
def busyGot (sid : Nat) (peer : SocketAddr) : UdpOut → List BusyEv
  | .got b => [.got sid peer b.val]
  | _ => []

/-- `/repo/letmein-proto/src/socket.rs:275-299` `/repo/letmein-proto/src/lib.rs:396-413` a receiving task after one round of
the loop. -/
def BusyTask.round (t : BusyTask) (k : RecvOut → Prog Unit) : UdpOut → BusyTask
  | .got b =>
    match Message.deserialize b.val with
    | .ok m => { prog := k (.msg m), done := t.done ++ [⟨.recv, RecvOut.msg m⟩] }
    | .err => { prog := k .fail, done := t.done ++ [⟨.recv, RecvOut.fail⟩] }
    | .panic => { t with prog := .ret .panic }
  | .failed => { prog := k .fail, done := t.done ++ [⟨.recv, RecvOut.fail⟩] }
  | .panic => { t with prog := .ret .panic }
  | .none => t
  | .accepted _ => t

/-- `/repo/letmein-proto/src/socket.rs:304-317` one `send_to` to the connection's own peer; a send reported as failed may or may
not have put the datagram on the wire. -/
def busySent (sid : Nat) (peer : SocketAddr) (b : Bytes) (gone : Bool) : List BusyEv := if gone then [.tx sid peer b] else []

/-- One step of the server. -/
inductive BusyStep (mac : MacFn) (conf : Config) : UdpBusy → UdpBusy → Prop where
  /-- `/repo/letmein-proto/src/socket.rs:246-269` `/repo/letmeind/src/main.rs:160-179` one round of accepting. -/
  | accept {S} (w : Wake) (i : SockIn) (hc : S.sock.crashed = false) :
      BusyStep mac conf S
        { sock := (udpStep S.sock (.accept w i)).2,
          tasks := S.tasks ++ busyNewTask mac conf (udpStep S.sock (.accept w i)).1,
          log := S.log ++ busyRead i }
  /-- `/repo/letmein-proto/src/socket.rs:275-299` one round of receiving. -/
  | recv {S} (sid : Nat) (w : Wake) (i : SockIn) (t : BusyTask) (se : UdpSession) (k : RecvOut → Prog Unit)
      (hc : S.sock.crashed = false) (ht : S.tasks[sid]? = some t) (hs : S.sock.sessions[sid]? = some se)
      (hk : t.prog = .act .recv k) :
      BusyStep mac conf S
        { sock := (udpStep S.sock (.recv sid w i)).2,
          tasks := S.tasks.set sid (t.round k (udpStep S.sock (.recv sid w i)).1),
          log := S.log ++ busyRead i ++ busyGot sid se.peer (udpStep S.sock (.recv sid w i)).1 }
  /-- `/repo/letmeind/src/protocol.rs:55-62` the receive times out. -/
  | timeout {S} (sid : Nat) (t : BusyTask) (k : RecvOut → Prog Unit)
      (hc : S.sock.crashed = false) (ht : S.tasks[sid]? = some t) (hk : t.prog = .act .recv k) :
      BusyStep mac conf S
        { S with tasks := S.tasks.set sid { prog := k .fail, done := t.done ++ [⟨.recv, RecvOut.fail⟩] } }
  /-- `/repo/letmeind/src/protocol.rs:86-90` `/repo/letmein-proto/src/socket.rs:304-317` a message is sent. -/
  | send {S} (sid : Nat) (t : BusyTask) (se : UdpSession) (m : Message) (k : Bool → Prog Unit) (b : Bytes) (ok gone : Bool)
      (hc : S.sock.crashed = false) (ht : S.tasks[sid]? = some t) (hs : S.sock.sessions[sid]? = some se)
      (hk : t.prog = .act (.send m) k) (hb : m.serialize = .ok b) (hg : ok = true → gone = true) :
      BusyStep mac conf S
        { S with
          tasks := S.tasks.set sid { prog := k ok, done := t.done ++ [⟨.send m, ok⟩] },
          log := S.log ++ busySent sid se.peer b gone }
  /-- Random numbers and letmeinfwd. -/
  | other {S} (sid : Nat) (t : BusyTask) (a : Act) (k : a.Resp → Prog Unit) (x : a.Resp)
      (hc : S.sock.crashed = false) (ht : S.tasks[sid]? = some t)
      (hk : t.prog = .act a k) (hr : a ≠ .recv) (hs : ∀ m, a ≠ .send m) :
      BusyStep mac conf S { S with tasks := S.tasks.set sid { prog := k x, done := t.done ++ [⟨a, x⟩] } }
  /-- `/repo/letmeind/src/main.rs:181-188` the session has ended and the connection is closed. -/
  | close {S} (sid : Nat) (t : BusyTask) (r : R Unit)
      (hc : S.sock.crashed = false) (ht : S.tasks[sid]? = some t) (hk : t.prog = .ret r) :
      BusyStep mac conf S { S with sock := (udpStep S.sock (.close sid)).2 }
  /-- The map's iteration order changes. -/
  | reorder {S} (l : List (SocketAddr × UdpConn)) (hc : S.sock.crashed = false) (hl : l.Perm S.sock.disp.conn) :
      BusyStep mac conf S { S with sock := (udpStep S.sock (.reorder l)).2 }

/-- The states a server with this configuration and connection limit can reach. -/
inductive BusyReach (mac : MacFn) (conf : Config) (maxConn : Nat) : UdpBusy → Prop where
  | start : BusyReach mac conf maxConn (UdpBusy.new maxConn)
  | step {S S'} (h : BusyReach mac conf maxConn S) (hs : BusyStep mac conf S S') : BusyReach mac conf maxConn S'

end Letmein
