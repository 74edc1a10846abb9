import Verif.Model.Wire
import Verif.Model.FwWire

/-!
# Byte-stream transport (TCP and Unix sockets)

Models the send and receive loops of `/repo/letmein-proto/src/socket.rs:388-467` (TCP variant) and
`/repo/letmein-fwproto/src/lib.rs:287-331` (which are the same loops with another message size).

The kernel is adversarial: a *schedule* lists the outcome of each `readable/writable` + `try_read/try_write` pair.
A schedule that ends means the peer/kernel does nothing more for now: the loop is still `pending`.
Not modelled: the waiting itself.
-/

namespace Letmein

/-- Outcome of one round of `readable().await` and `try_read(&mut buf[count..])`. -/
inductive RdStep where
  /-- The kernel hands out at most `n + 1` of the bytes that are left (0 bytes, i.e. end of stream, if none is left). -/
  | chunk (n : Nat)
  /-- `ErrorKind::WouldBlock`. -/
  | wouldBlock
  /-- Another error of `try_read`. -/
  | fail
  /-- `readable()` fails. -/
  | pollFail
  deriving DecidableEq, Repr

/-- Outcome of one round of `writable().await` and `try_write(&buf[count..])`. -/
inductive WrStep where
  /-- The kernel takes at most `n` bytes. -/
  | wrote (n : Nat)
  | wouldBlock
  | fail
  | pollFail
  deriving DecidableEq, Repr

/-- Result of a receive. -/
inductive RxResult where
  /-- `Ok(Some(buf))` -/
  | msg (buf : Bytes)
  /-- `Ok(None)` -/
  | disconnected
  | err
  | panic
  /-- still waiting when the schedule ends -/
  | pending
  deriving DecidableEq, Repr

/-- The bytes `try_read` delivers into a buffer with `room` free bytes when `data` is what the peer
will ever send: POSIX `read`, never more than `room`, at least one unless at end of stream. -/
def kernelRead (data : Bytes) (room n : Nat) : Bytes := data.take (min (n + 1) room)

/-- `/repo/letmein-proto/src/socket.rs:433-459` and `/repo/letmein-fwproto/src/lib.rs:310-330`: the receive loop.
`size` is the message size, `buf`/`count` the loop variables, `data` the bytes of the stream not yet consumed.
Returns the result, the bytes still not consumed and the rest of the schedule. -/
def rxLoop (size : Nat) (buf : Bytes) (count : Nat) (data : Bytes) : List RdStep → RxResult × Bytes × List RdStep
  | [] => (.pending, data, [])
  | .pollFail :: sched => (.err, data, sched)
  | .fail :: sched => (.err, data, sched)
  | .wouldBlock :: sched => rxLoop size buf count data sched
  | .chunk n :: sched =>
    let got := kernelRead data (buf.length - count) n
    let data' := data.drop got.length
    if got.length = 0 then (.disconnected, data', sched)
    else
      match writeAt buf count got with
      | .ok buf' =>
        let count' := count + got.length
        if ¬ count' ≤ size then (.panic, data', sched)
        else if count' = size then (.msg buf', data', sched)
        else rxLoop size buf' count' data' sched
      | _ => (.panic, data', sched)

/-- `/repo/letmein-proto/src/socket.rs:427-460` `NetSocket::recv`, TCP variant. -/
def tcpRecv (closed : Bool) (data : Bytes) (sched : List RdStep) : RxResult × Bytes × List RdStep :=
  if closed then (.err, data, sched)
  else rxLoop MSG_SIZE (Arr.replicate MSG_SIZE 0).val 0 data sched

/-- Result of a send. -/
inductive TxResult where
  | ok | err | panic | pending
  deriving DecidableEq, Repr

/-- `/repo/letmein-proto/src/socket.rs:394-417` and `/repo/letmein-fwproto/src/lib.rs:289-305`: the send loop.
`wire` is what has been put on the stream so far. -/
def txLoop (buf : Bytes) (count : Nat) (wire : Bytes) : List WrStep → TxResult × Bytes × List WrStep
  | [] => (.pending, wire, [])
  | .pollFail :: sched => (.err, wire, sched)
  | .fail :: sched => (.err, wire, sched)
  | .wouldBlock :: sched => txLoop buf count wire sched
  | .wrote n :: sched =>
    match sliceFrom buf count with
    | .ok rest =>
      let taken := rest.take n
      let wire' := wire ++ taken
      let count' := count + taken.length
      if ¬ count' ≤ buf.length then (.panic, wire', sched)
      else if count' = buf.length then (.ok, wire', sched)
      else txLoop buf count' wire' sched
    | _ => (.panic, wire, sched)

/-- `/repo/letmein-proto/src/socket.rs:388-417` `NetSocket::send`, TCP variant. -/
def tcpSend (closed : Bool) (buf : Bytes) (wire : Bytes) (sched : List WrStep) : TxResult × Bytes × List WrStep :=
  if closed then (.err, wire, sched) else txLoop buf 0 wire sched

/-- `/repo/letmein-proto/src/lib.rs:393-399` `Message::send` over TCP. -/
def msgSend (closed : Bool) (m : Message) (wire : Bytes) (sched : List WrStep) : TxResult × Bytes × List WrStep :=
  match m.serialize with
  | .ok b => tcpSend closed b wire sched
  | .err => (.err, wire, sched)
  | .panic => (.panic, wire, sched)

/-- Result of `Message::recv`. -/
inductive MsgRx (α : Type) where
  | msg (m : α)
  | disconnected
  | err
  | panic
  | pending
  deriving DecidableEq

/-- `?` on the buffer result followed by decoding. -/
def decodeRx {α : Type} (decode : Bytes → R α) : RxResult → MsgRx α
  | .msg b => match decode b with
    | .ok m => .msg m
    | .err => .err
    | .panic => .panic
  | .disconnected => .disconnected
  | .err => .err
  | .panic => .panic
  | .pending => .pending

/-- `/repo/letmein-proto/src/lib.rs:402-413` `Message::recv` over TCP. -/
def msgRecv (closed : Bool) (data : Bytes) (sched : List RdStep) : MsgRx Message × Bytes × List RdStep :=
  let r := tcpRecv closed data sched
  (decodeRx Message.deserialize r.1, r.2)

/-- `/repo/letmein-fwproto/src/lib.rs:287-306` `FirewallMessage::send`. -/
def fwSend (m : FwMessage) (wire : Bytes) (sched : List WrStep) : TxResult × Bytes × List WrStep :=
  match m.serialize with
  | .ok b => txLoop b 0 wire sched
  | .err => (.err, wire, sched)
  | .panic => (.panic, wire, sched)

/-- `/repo/letmein-fwproto/src/lib.rs:309-331` `FirewallMessage::recv`. -/
def fwRecv (data : Bytes) (sched : List RdStep) : MsgRx FwMessage × Bytes × List RdStep :=
  let r := rxLoop FWMSG_SIZE (Arr.replicate FWMSG_SIZE 0).val 0 data sched
  (decodeRx FwMessage.deserialize r.1, r.2)

/-- Sending several messages one after another, each with its own schedule; stops at the first that is not sent. -/
def sendAll (ser : α → List WrStep → Bytes → TxResult × Bytes) : List (α × List WrStep) → Bytes → TxResult × Bytes
  | [], wire => (.ok, wire)
  | (m, s) :: rest, wire =>
    match ser m s wire with
    | (.ok, wire') => sendAll ser rest wire'
    | r => r

/-- Receiving several messages one after another, each with its own schedule; stops at the first failure. -/
def recvAll {α : Type} (rx : Bytes → List RdStep → MsgRx α × Bytes × List RdStep) :
    List (List RdStep) → Bytes → List α × MsgRx α × Bytes
  | [], data => ([], .pending, data)
  | s :: rest, data =>
    match rx data s with
    | (.msg m, data', _) =>
      let r := recvAll rx rest data'
      (m :: r.1, r.2)
    | (r, data', _) => ([], r, data')

end Letmein
