import Verif.Model.Udp

/-!
# Model: system call filters

`/repo/letmein-seccomp/src/lib.rs` and the `seccomp.rs` files of the three programs.

System calls are named as in the crate `libc`; within one architecture different names have different numbers, so a map with numbers as
keys is a map with names as keys. The compilation of the rules to BPF by the crate `seccompiler` is external; what is modelled of it is its
documented meaning: a call without rules in the map is allowed for all arguments; a call with rules is allowed if all conditions of one of its
rules hold; every other call meets the deny action. A 32 bit condition compares the low halves.
-/

namespace Letmein

/-- The system calls with a name in the model: those of the source, and some further ones that properties mention. -/
inductive SysName where
  | brk | close | close_range | exit | exit_group | getpid | getrandom | gettid | madvise | munmap | sched_getaffinity | sigaltstack
  | nanosleep | clock_gettime | clock_getres | clock_nanosleep | gettimeofday
  | epoll_create1 | epoll_ctl | epoll_pwait | epoll_pwait2 | epoll_wait | lseek | poll | ppoll | pselect6
  | mmap | mremap | mprotect | getuid | geteuid | getgid | getegid | arch_prctl | dup | dup2 | dup3 | pipe | pipe2 | bind | listen
  | accept4 | socket | getsockopt | getpeername | connect | setsockopt | access | faccessat | faccessat2 | open | openat
  | pread64 | preadv2 | read | readv | fdatasync | fsync | pwrite64 | pwritev2 | write | writev | ioctl | fcntl | fstat | statx | newfstatat
  | recvfrom | recvmsg | recvmmsg | sendto | sendmsg | sendmmsg | rt_sigreturn | rt_sigprocmask | rt_sigaction
  | futex | get_robust_list | set_robust_list | futex_waitv | set_tid_address | rseq | clone3 | clone | execve | wait4 | prlimit64 | uname | pidfd_open
  -- not in the source
  | execveat | openat2 | creat | unlink | unlinkat | rename | renameat | renameat2 | chmod | fchmodat | chown | fchownat | mkdir | mkdirat
  | kill | tkill | tgkill | rt_sigqueueinfo | pidfd_send_signal | ptrace | process_vm_readv | process_vm_writev | fork | vfork
  | setuid | setgid | setresuid | setresgid | setgroups | capset | mount | umount2 | pivot_root | chroot | unshare | setns
  | init_module | finit_module | kexec_load | reboot | bpf | perf_event_open | io_uring_setup | prctl | seccomp | memfd_create | shmat | accept
  deriving DecidableEq, Repr

/-- A system call. -/
inductive Sys where
  | named (n : SysName)
  /-- any other -/
  | other (nr : Nat)
  deriving DecidableEq, Repr

/-- The platforms with `has_seccomp_support` (`/repo/letmein-seccomp/build.rs:18-33`): x86_64 or aarch64, Linux or Android. Pointers have 64 bits. -/
structure SecPlatform where
  x86_64 : Bool
  linux : Bool
  deriving DecidableEq, Repr

/-- `seccompiler::SeccompCondition` with operator `Eq`. -/
structure SecCond where
  idx : Nat
  /-- `SeccompCmpArgLen::Dword` or `Qword` -/
  dword : Bool
  value : UInt64
  deriving DecidableEq, Repr

/-- `seccompiler::SeccompRule`: all conditions must hold. -/
abbrev SecRule := List SecCond

/-- `RulesMap`, as an association list with distinct keys. -/
abbrev SecRules := List (Sys × List SecRule)

/-- `/repo/letmein-seccomp/src/lib.rs:32-59` `seccomp_cond` (`bit_width` 32, or `PTR` = 64). All argument indexes in the source are below 6, so
`SeccompCondition::new` does not fail. -/
def seccompCond (idx : Nat) (value : UInt64) (dword : Bool) : R SecCond :=
  if dword && value &&& 0xFFFFFFFF00000000 ≠ 0 then .panic else .ok { idx, dword, value }

/-- Rust `x as u64` for an `i32`: sign extension. -/
def i32AsU64 (x : Int32) : UInt64 := UInt64.ofInt x.toInt

/-- `/repo/letmein-seccomp/src/lib.rs:79-115` `Allow`. -/
inductive Allow where
  | Mmap | Mprotect | GetUidGid
  | ArchPrctl (op : Option UInt32)
  | Dup | Pipe | Listen | UnixAccept | UnixConnect | TcpAccept | TcpConnect | Netlink
  | SetSockOpt (levelOptname : Option (Int32 × Int32))
  | Access | Open | Read | Write
  | Ioctl (op : Option UInt32)
  | Fcntl (op : Option UInt32)
  | Stat | Recv | Send | Signal | SigAction | Futex | SetTidAddress | Rseq | Clone | Exec | Wait | GetRlimit | Uname | Pidfd
  deriving DecidableEq, Repr

/-- `/repo/letmein-seccomp/src/lib.rs:143-145` `add_sys`: an entry, with no rules if it is new. -/
def addSys (map : SecRules) (s : Sys) : SecRules :=
  match assocGet map s with
  | none => assocSet map s []
  | some _ => map

/-- `/repo/letmein-seccomp/src/lib.rs:147-150` `add_sys_args_match`. -/
def addSysArgs (map : SecRules) (s : Sys) (rule : SecRule) : SecRules :=
  assocSet map s ((assocGet map s).getD [] ++ [rule])

/-- One call of `add_sys` (no rule) or `add_sys_args_match`. -/
abbrev SecAdd := Sys × Option SecRule

/-- `add_sys` for each. -/
def plainSys (l : List SysName) : List SecAdd := l.map fun n => (.named n, none)

/-- A line under `#[cfg(..)]`. -/
def cfg (b : Bool) (l : List SecAdd) : List SecAdd := if b then l else []

/-- `/repo/letmein-seccomp/src/lib.rs:154-171`. -/
def baseAdds (p : SecPlatform) : List SecAdd :=
  plainSys [.brk, .close] ++ cfg p.linux (plainSys [.close_range]) ++
  plainSys [.exit, .exit_group, .getpid, .getrandom, .gettid, .madvise, .munmap, .sched_getaffinity, .sigaltstack, .nanosleep, .clock_gettime,
    .clock_getres, .clock_nanosleep, .gettimeofday]

/-- `/repo/letmein-seccomp/src/lib.rs:173-186` `add_read_write_rules`. -/
def readWriteAdds (p : SecPlatform) : List SecAdd :=
  plainSys [.epoll_create1, .epoll_ctl, .epoll_pwait] ++ cfg (p.x86_64 && p.linux) (plainSys [.epoll_pwait2]) ++
  cfg p.x86_64 (plainSys [.epoll_wait]) ++ plainSys [.lseek] ++ cfg p.x86_64 (plainSys [.poll]) ++ plainSys [.ppoll, .pselect6]

/-- A rule for the first argument of `socket`: the address family. -/
def socketAdd (family : UInt64) : R SecAdd := do
  let c ← seccompCond 0 family true
  .ok (.named .socket, some [c])

/-- `libc::AF_UNIX` -/
abbrev AF_UNIX : UInt64 := 1
/-- `libc::AF_INET` -/
abbrev AF_INET : UInt64 := 2
/-- `libc::AF_INET6` -/
abbrev AF_INET6 : UInt64 := 10
/-- `libc::AF_NETLINK` -/
abbrev AF_NETLINK : UInt64 := 16

/-- `/repo/letmein-seccomp/src/lib.rs:188-385` one turn of the loop: the calls of `add_sys` and `add_sys_args_match`, in order. -/
def allowAdds (p : SecPlatform) : Allow → R (List SecAdd)
  | .Mmap => .ok (plainSys [.mmap, .mremap, .munmap])
  | .Mprotect => .ok (plainSys [.mprotect])
  | .GetUidGid => .ok (plainSys [.getuid, .geteuid, .getgid, .getegid])
  | .ArchPrctl _ => .ok (cfg p.x86_64 (plainSys [.arch_prctl]))
  | .Dup => .ok (plainSys [.dup] ++ cfg p.x86_64 (plainSys [.dup2]) ++ plainSys [.dup3])
  | .Pipe => .ok (cfg p.x86_64 (plainSys [.pipe]) ++ plainSys [.pipe2])
  | .Listen => .ok (plainSys [.bind, .listen])
  | .UnixAccept => do
    let s ← socketAdd AF_UNIX
    .ok (plainSys [.accept4] ++ [s] ++ plainSys [.getsockopt, .getpeername])
  | .UnixConnect => do
    let s ← socketAdd AF_UNIX
    .ok (plainSys [.connect] ++ [s] ++ plainSys [.getsockopt, .getpeername])
  | .TcpAccept => do
    let s4 ← socketAdd AF_INET
    let s6 ← socketAdd AF_INET6
    .ok (plainSys [.accept4] ++ [s4, s6] ++ plainSys [.getsockopt, .getpeername])
  | .TcpConnect => do
    let s4 ← socketAdd AF_INET
    let s6 ← socketAdd AF_INET6
    .ok (plainSys [.connect] ++ [s4, s6] ++ plainSys [.getsockopt, .getpeername])
  | .Netlink => do
    let s ← socketAdd AF_NETLINK
    .ok (plainSys [.connect] ++ [s] ++ plainSys [.getsockopt])
  | .SetSockOpt (some (level, optname)) => do
    let c1 ← seccompCond 1 (i32AsU64 level) true
    let c2 ← seccompCond 2 (i32AsU64 optname) true
    .ok [(.named .setsockopt, some [c1, c2])]
  | .SetSockOpt none => .ok (plainSys [.setsockopt])
  | .Access => .ok (cfg p.x86_64 (plainSys [.access]) ++ plainSys [.faccessat] ++ cfg p.linux (plainSys [.faccessat2]))
  | .Open => .ok (cfg p.x86_64 (plainSys [.open]) ++ plainSys [.openat])
  | .Read => .ok (plainSys [.pread64, .preadv2, .read, .readv] ++ readWriteAdds p)
  | .Write => .ok (plainSys [.fdatasync, .fsync, .pwrite64, .pwritev2, .write, .writev] ++ readWriteAdds p)
  | .Ioctl _ => .ok (plainSys [.ioctl])
  | .Fcntl (some op) => do
    let c ← seccompCond 1 op.toUInt64 true
    .ok [(.named .fcntl, some [c])]
  | .Fcntl none => .ok (plainSys [.fcntl])
  | .Stat => .ok (plainSys [.fstat, .statx, .newfstatat])
  | .Recv => .ok (plainSys [.recvfrom, .recvmsg, .recvmmsg])
  | .Send => .ok (plainSys [.sendto, .sendmsg, .sendmmsg])
  | .Signal => .ok (plainSys [.rt_sigreturn, .rt_sigprocmask])
  | .SigAction => .ok (plainSys [.rt_sigaction])
  | .Futex => .ok (plainSys [.futex, .get_robust_list, .set_robust_list] ++ cfg (p.x86_64 && p.linux) (plainSys [.futex_waitv]))
  | .SetTidAddress => .ok (plainSys [.set_tid_address])
  | .Rseq => .ok (cfg p.linux (plainSys [.rseq]))
  | .Clone => .ok (cfg p.linux (plainSys [.clone3]) ++ cfg (!p.x86_64) (plainSys [.clone]))
  | .Exec => .ok (plainSys [.execve])
  | .Wait => .ok (plainSys [.wait4])
  | .GetRlimit => do
    let c0 ← seccompCond 0 0 true
    let c2 ← seccompCond 2 0 false
    .ok [(.named .prlimit64, some [c0, c2])]
  | .Uname => .ok (plainSys [.uname])
  | .Pidfd => .ok (plainSys [.pidfd_open])

/-- `add_sys` or `add_sys_args_match`. -/
def SecAdd.apply (map : SecRules) : SecAdd → SecRules
  | (s, none) => addSys map s
  | (s, some rule) => addSysArgs map s rule

/-- `/repo/letmein-seccomp/src/lib.rs:188-385` the loop. -/
def compileLoop (p : SecPlatform) : SecRules → List Allow → R SecRules
  | map, [] => .ok map
  | map, a :: rest => do
    let adds ← allowAdds p a
    compileLoop p (adds.foldl SecAdd.apply map) rest

/-- `/repo/letmein-seccomp/src/lib.rs:117-124` `Action`. -/
inductive SecAction where
  | Kill | Log
  deriving DecidableEq, Repr

/-- `/repo/letmein-seccomp/src/lib.rs:126-127` `Filter`. -/
structure SecFilter where
  rules : SecRules
  deny : SecAction
  deriving DecidableEq, Repr

/-- `/repo/letmein-seccomp/src/lib.rs:134-401` `compile_for_arch` for the architecture of the platform. The two actions given to
`SeccompFilter::new` differ and the program is short enough, so `seccompiler` reports no error. -/
def SecFilter.compile (p : SecPlatform) (allow : List Allow) (deny : SecAction) : R SecFilter := do
  rassert (!allow.isEmpty)
  let rules ← compileLoop p ((baseAdds p).foldl SecAdd.apply []) allow
  .ok { rules, deny }

/-- The arguments of a system call: six registers. -/
abbrev SysArgs := Nat → UInt64

/-- Meaning of `SeccompCmpOp::Eq`. -/
def SecCond.holds (c : SecCond) (args : SysArgs) : Bool :=
  if c.dword then (args c.idx &&& 0xFFFFFFFF) = c.value else args c.idx = c.value

/-- Meaning of the map. -/
def SecFilter.permits (f : SecFilter) (s : Sys) (args : SysArgs) : Bool :=
  match assocGet f.rules s with
  | none => false
  | some rules => rules.isEmpty || rules.any (fun r => r.all (·.holds args))

/-- What happens to the process. -/
inductive SecEffect where
  | allowed | logged | killed
  deriving DecidableEq, Repr

/-- Meaning of the actions. -/
def SecFilter.effect (f : SecFilter) (s : Sys) (args : SysArgs) : SecEffect :=
  if f.permits s args then .allowed
  else match f.deny with
    | .Kill => .killed
    | .Log => .logged

/-- `libc::F_GETFD` -/
abbrev F_GETFD : UInt32 := 1
/-- `libc::IPPROTO_TCP`, `libc::TCP_NODELAY` -/
abbrev tcpNodelay : Int32 × Int32 := (6, 1)

/-- `/repo/letmein/src/seccomp.rs:15-35` -/
def letmeinAllow : List Allow :=
  [.Mmap, .Mprotect, .Open, .Read, .Write, .Fcntl (some F_GETFD), .Stat, .Recv, .Send, .Listen, .TcpConnect, .SetSockOpt (some tcpNodelay), .Futex,
    .Uname]

/-- `/repo/letmeind/src/seccomp.rs:13-31` -/
def letmeindAllow : List Allow :=
  [.Mmap, .Mprotect, .Read, .Write, .Fcntl (some F_GETFD), .Recv, .Send, .Listen, .TcpAccept, .UnixConnect, .SetSockOpt (some tcpNodelay), .Signal,
    .Futex]

/-- `/repo/letmeinfwd/src/seccomp.rs:13-45` -/
def letmeinfwdAllow : List Allow :=
  [.Mmap, .Mprotect, .GetUidGid, .ArchPrctl none, .Dup, .Pipe, .Access, .Open, .Read, .Write, .Ioctl none, .Fcntl none, .Stat, .Recv, .Send, .Listen,
    .UnixAccept, .Netlink, .SetSockOpt none, .Signal, .SigAction, .Futex, .SetTidAddress, .Rseq, .Clone, .Exec, .Wait, .GetRlimit, .Pidfd]

/-- `/repo/letmein/src/seccomp.rs:37-65`, `/repo/letmeind/src/seccomp.rs:33-60`, `/repo/letmeinfwd/src/seccomp.rs:47-74`
`install_seccomp_rules`: the filter that is in force afterwards. `platform` is `none` where `seccomp_supported()` is false
(`/repo/letmein-seccomp/src/lib.rs:74-77`); `installOk` is the outcome of `Filter::install` (`:412-414`). -/
def installSeccomp (allow : List Allow) (platform : Option SecPlatform) (seccomp : Seccomp) (installOk : Bool) : R (Option SecFilter) :=
  match seccomp with
  | .Off => .ok none
  | .Log => install .Log
  | .Kill => install .Kill
where
  /-- The part after the choice of the action. -/
  install (action : SecAction) : R (Option SecFilter) :=
    match platform with
    | none => .ok none
    | some p => do
      let f ← SecFilter.compile p allow action
      rensure installOk
      .ok (some f)

/-- `/repo/letmein/src/main.rs:249`, `/repo/letmeind/src/main.rs:149-150`, `/repo/letmeinfwd/src/main.rs:212-213`: the option `--seccomp`
overrides the configuration file. -/
def installFor (allow : List Allow) (platform : Option SecPlatform) (option : Option Seccomp) (conf : Config) (installOk : Bool) :
    R (Option SecFilter) :=
  installSeccomp allow platform (option.getD conf.seccomp) installOk

end Letmein
