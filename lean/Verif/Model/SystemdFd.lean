import Verif.Model.Daemon

/-!
# Inspection of the descriptors passed by systemd

Models `/repo/letmein-systemd/src/lib.rs:31-118`: the three system calls by which a passed descriptor is inspected. What the kernel answers is the
input `FdAnswers`; `PassedFd` of `Verif.Model.Daemon` is the result of the inspection.
-/

namespace Letmein

/-- The kernel's answers about one descriptor; `none`: the call fails (returns something else than 0).
`fstat64` gives `st_mode`; `getsockopt(SOL_SOCKET, SO_TYPE)` gives the value and its length; `getsockname` gives `sa_family` and the length of the
address, which may exceed the buffer (then the address is cut off). -/
structure FdAnswers where
  fstat : Option Nat
  soType : Option (Nat × Nat)
  sockName : Option (Nat × Nat)
  deriving DecidableEq

/-- `libc::S_IFMT` on Linux. -/
def S_IFMT : Nat := 0o170000
/-- `libc::S_IFSOCK` on Linux. -/
def S_IFSOCK : Nat := 0o140000
/-- `libc::SOCK_STREAM` on Linux (all platforms but MIPS, where it is exchanged with the next one). -/
def SOCK_STREAM : Nat := 1
/-- `libc::SOCK_DGRAM` on Linux (see `SOCK_STREAM`). -/
def SOCK_DGRAM : Nat := 2
/-- `libc::AF_UNIX` on Linux. -/
def SA_UNIX : Nat := 1
/-- `libc::AF_INET` on Linux. -/
def SA_INET : Nat := 2
/-- `libc::AF_INET6` on Linux. -/
def SA_INET6 : Nat := 10
/-- `size_of::<libc::c_int>()`. -/
def SIZEOF_INT : Nat := 4
/-- `size_of::<libc::sockaddr>()` on Linux. -/
def SIZEOF_SOCKADDR : Nat := 16

/-- `/repo/letmein-systemd/src/lib.rs:31-32` `INET46`. -/
def INET46 : List (Option Nat) := [some SA_INET, some SA_INET6]

/-- `/repo/letmein-systemd/src/lib.rs:34-48` `is_socket`. -/
def isSocket (a : FdAnswers) : Bool :=
  match a.fstat with
  | some mode => mode &&& S_IFMT == S_IFSOCK
  | none => false

/-- `/repo/letmein-systemd/src/lib.rs:50-71` `get_socket_type`. -/
def getSocketType (a : FdAnswers) : Option Nat :=
  match a.soType with
  | some (t, len) => if len ≥ SIZEOF_INT then some t else none
  | none => none

/-- `/repo/letmein-systemd/src/lib.rs:73-88` `get_socket_family`. -/
def getSocketFamily (a : FdAnswers) : Option Nat :=
  match a.sockName with
  | some (f, len) => if len ≥ SIZEOF_SOCKADDR then some f else none
  | none => none

/-- The constants that `SO_TYPE` is compared with, as `SockType`. -/
def SockType.ofRaw (t : Nat) : SockType := if t = SOCK_STREAM then .stream else if t = SOCK_DGRAM then .dgram else .other

/-- The constants that `sa_family` is compared with, as `SockFamily`. -/
def SockFamily.ofRaw (f : Nat) : SockFamily :=
  if INET46.contains (some f) then (if f = SA_INET then .inet else .inet6) else if f = SA_UNIX then .unix else .other

/-- The result of the inspection of descriptor `fd` (`/repo/letmein-systemd/src/lib.rs:90-118`: each of the three tests makes these calls again, with
the same answers). -/
def PassedFd.inspect (fd : Nat) (a : FdAnswers) : PassedFd :=
  { fd, isSocket := Letmein.isSocket a, sockType := (getSocketType a).map .ofRaw, family := (getSocketFamily a).map .ofRaw }

end Letmein
