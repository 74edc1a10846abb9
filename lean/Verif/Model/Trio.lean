import Verif.Model.Session
import Verif.Model.Client
import Verif.Model.FwServer

/-!
# Client, letmeind and letmeinfwd together

One client and one server session over a connection on which nothing is modified or invented, and the letmeinfwd process the
session talks to. Messages between client and server may be lost, delayed, reordered and duplicated (UDP), everything may fail at
any time, scheduling is arbitrary, and letmeinfwd serves other sessions, runs its maintenance and is subject to other
programs at the same time. Messages stand for their bytes
(`C01` to `C06` relate the two).
-/

namespace Letmein

open Prog

/-- What happens in the composition. `delivered`: a message sent in this step arrives (otherwise it is lost, whatever the
sender was told). `own`: the operation of letmeinfwd is the handling of a message of this session. -/
inductive TrioEv where
  | client (e : Ev) (delivered : Bool)
  | server (e : Ev) (delivered : Bool)
  | fwd (op : FwdOp) (own : Bool)

/-- The messages that can arrive (client to server, back), the messages in transit (letmeind to letmeinfwd, back) and
letmeinfwd. -/
structure Links where
  c2s : List Message
  s2c : List Message
  toFw : List FwMessage
  fromFw : List FwMessage
  fwd : FwdState

/-- Take the expected message off a queue. -/
def takeHead {α : Type} [DecidableEq α] (q : List α) (m : α) : Option (List α) :=
  match q with
  | x :: rest => if x = m then some rest else none
  | [] => none

/-- One step; `none`: not possible. The control connection (`/repo/letmein-proto/src/socket.rs`) delivers what was sent; the Unix
socket between the daemons (`/repo/letmein-fwproto/src/lib.rs:278-331`) delivers in order and once. The session's message is handled by letmeinfwd as in
`/repo/letmeinfwd/src/server.rs:76-144`. -/
def linkStep (fconf : Config) (L : Links) : TrioEv → Option Links
  | .client ⟨.send m, _⟩ delivered => some (if delivered then { L with c2s := L.c2s ++ [m] } else L)
  | .client ⟨.recv, .msg m⟩ _ => if m ∈ L.s2c then some L else none
  | .client _ _ => some L
  | .server ⟨.send m, _⟩ delivered => some (if delivered then { L with s2c := L.s2c ++ [m] } else L)
  | .server ⟨.recv, .msg m⟩ _ => if m ∈ L.c2s then some L else none
  | .server ⟨.fwSend m, _⟩ delivered => some (if delivered then { L with toFw := L.toFw ++ [m] } else L)
  | .server ⟨.fwRecv, .msg m⟩ _ => (takeHead L.fromFw m).map (fun q => { L with fromFw := q })
  | .server _ _ => some L
  | .fwd op false => some { L with fwd := (fwdStep fconf L.fwd op).2 }
  | .fwd (.request (.msg m) now ok) true =>
    (takeHead L.toFw m).map (fun q =>
      let r := fwdStep fconf L.fwd (.request (.msg m) now ok)
      { L with toFw := q, fromFw := L.fromFw ++ r.1.toList, fwd := r.2 })
  | .fwd _ true => none

/-- Several steps. -/
def linkRun (fconf : Config) (L : Links) : List TrioEv → Option Links
  | [] => some L
  | e :: rest =>
    match linkStep fconf L e with
    | some L' => linkRun fconf L' rest
    | none => none

/-- What the client did. -/
def clientEvs (evs : List TrioEv) : List Ev := evs.filterMap (fun | .client e _ => some e | _ => none)
/-- What the server session did. -/
def serverEvs (evs : List TrioEv) : List Ev := evs.filterMap (fun | .server e _ => some e | _ => none)
/-- What happened to letmeinfwd. -/
def fwdOps (evs : List TrioEv) : List FwdOp := evs.filterMap (fun | .fwd op _ => some op | _ => none)

/-- A run of the composition: client (`/repo/letmein/src/command/knock.rs:77-127`) and server
(`/repo/letmeind/src/protocol.rs:119-237`) follow their programs, nothing has been sent at the start. -/
structure TrioRun (mac : MacFn) (sconf fconf : Config) (peer : IpAddr) (u : UserId) (r : ResourceId) (key : Key)
    (s0 : FwdState) (evs : List TrioEv) (o : Option (R Unit)) (L : Links) : Prop where
  client : (knockSequence mac u r key).Trace (clientEvs evs) o
  server : ∃ o', (session mac sconf peer).Trace (serverEvs evs) o'
  links : linkRun fconf ⟨[], [], [], [], s0⟩ evs = some L

end Letmein
