import Verif.Model.Seccomp
import Verif.Lemmas.Assoc
import Verif.Lemmas.ConfNum

/-!
# Properties C47 and C62: system call filters
-/

namespace Letmein.Spec

/-- The 32 bit value in a register. -/
def low32 (x : UInt64) : Nat := x.toNat % 4294967296

/-- No entry without restriction beside an entry with restriction for the same call. -/
structure NoMix (l : List Allow) : Prop where
  fcntl : .Fcntl none ∈ l → ∀ op, Allow.Fcntl (some op) ∉ l
  setsockopt : .SetSockOpt none ∈ l → ∀ x, Allow.SetSockOpt (some x) ∉ l

/-- Entries present on some platforms only. -/
def onlyIf (b : Bool) (l : List SysName) : List SysName := if b then l else []

/-- Calls that every program needs. -/
def commonCalls (p : SecPlatform) : List SysName :=
  [.brk, .close, .exit, .exit_group, .getpid, .getrandom, .gettid, .madvise, .munmap, .sched_getaffinity, .sigaltstack, .nanosleep, .clock_gettime,
    .clock_getres, .clock_nanosleep, .gettimeofday] ++ onlyIf p.linux [.close_range]

/-- Memory. -/
def memCalls : List SysName := [.mmap, .mremap, .mprotect]

/-- Reading, writing and waiting. -/
def ioCalls (p : SecPlatform) : List SysName :=
  [.read, .readv, .pread64, .preadv2, .write, .writev, .pwrite64, .pwritev2, .fsync, .fdatasync, .lseek, .epoll_create1, .epoll_ctl, .epoll_pwait, .ppoll,
    .pselect6] ++ onlyIf p.x86_64 [.epoll_wait, .poll] ++ onlyIf (p.x86_64 && p.linux) [.epoll_pwait2]

/-- Messages on sockets. -/
def netCalls : List SysName :=
  [.recvfrom, .recvmsg, .recvmmsg, .sendto, .sendmsg, .sendmmsg, .bind, .listen, .getsockopt, .getpeername, .connect]

/-- Locks. -/
def lockCalls (p : SecPlatform) : List SysName := [.futex, .get_robust_list, .set_robust_list] ++ onlyIf (p.x86_64 && p.linux) [.futex_waitv]

/-- Opening files. -/
def openCalls (p : SecPlatform) : List SysName := [.openat] ++ onlyIf p.x86_64 [.open]

/-- The calls letmein may make with any arguments. -/
def letmeinCalls (p : SecPlatform) : List SysName :=
  commonCalls p ++ memCalls ++ ioCalls p ++ netCalls ++ lockCalls p ++ openCalls p ++ [.fstat, .statx, .newfstatat, .uname]

/-- The calls letmeind may make with any arguments. -/
def letmeindCalls (p : SecPlatform) : List SysName :=
  commonCalls p ++ memCalls ++ ioCalls p ++ netCalls ++ lockCalls p ++ [.accept4, .rt_sigreturn, .rt_sigprocmask]

/-- The calls letmeinfwd may make with any arguments. -/
def letmeinfwdCalls (p : SecPlatform) : List SysName :=
  commonCalls p ++ memCalls ++ ioCalls p ++ netCalls ++ lockCalls p ++ openCalls p ++
  [.accept4, .rt_sigreturn, .rt_sigprocmask, .rt_sigaction, .getuid, .geteuid, .getgid, .getegid, .dup, .dup3, .pipe2, .faccessat, .ioctl, .fcntl, .fstat,
    .statx, .newfstatat, .setsockopt, .set_tid_address, .execve, .wait4, .pidfd_open] ++
  onlyIf p.x86_64 [.arch_prctl, .dup2, .pipe, .access] ++ onlyIf p.linux [.faccessat2, .rseq, .clone3] ++ onlyIf (!p.x86_64) [.clone]

/-- Calls with which a process acts beyond its own files and connections: it runs or creates programs and processes, opens or changes files, changes
its identity or other processes, or changes the system. -/
def powerfulCalls : List SysName :=
  [.execve, .execveat, .clone, .clone3, .fork, .vfork, .open, .openat, .openat2, .creat, .unlink, .unlinkat, .rename, .renameat, .renameat2, .chmod,
    .fchmodat, .chown, .fchownat, .mkdir, .mkdirat, .kill, .tkill, .tgkill, .rt_sigqueueinfo, .pidfd_open, .pidfd_send_signal, .ptrace,
    .process_vm_readv, .process_vm_writev, .setuid, .setgid, .setresuid, .setresgid, .setgroups, .capset, .mount, .umount2, .pivot_root, .chroot,
    .unshare, .setns, .init_module, .finit_module, .kexec_load, .reboot, .bpf, .perf_event_open, .io_uring_setup, .prctl, .seccomp, .ioctl, .prlimit64]

end Letmein.Spec

namespace Letmein.Props

open Letmein Spec

/-! ## Bits -/

/-- The high half is zero. -/
theorem hi_zero (y : UInt64) : y &&& 0xFFFFFFFF00000000 = 0 ↔ y.toNat < 4294967296 := by
  rw [← UInt64.toNat_inj, UInt64.toNat_and]
  have hm : (0xFFFFFFFF00000000 : UInt64).toNat = (2 ^ 32 - 1) <<< 32 := by decide
  rw [hm]
  have h64 := y.toNat_lt
  generalize y.toNat = n at *
  constructor
  · intro h
    have : (4294967296 : Nat) = 2 ^ 32 := by decide
    rw [this]
    refine Nat.lt_pow_two_of_testBit _ fun i hi => ?_
    by_cases h2 : i < 64
    · have := congrArg (fun z => Nat.testBit z i) h
      simp only [Nat.testBit_and, Nat.testBit_shiftLeft, Nat.testBit_two_pow_sub_one] at this
      simp at this
      cases hb : n.testBit i with
      | false => rfl
      | true => exfalso; have := this hb (by omega); omega
    · exact Nat.testBit_lt_two_pow (Nat.lt_of_lt_of_le h64 (Nat.pow_le_pow_right (by decide) (by omega)))
  · intro h
    refine Nat.eq_of_testBit_eq fun i => ?_
    simp only [Nat.testBit_and, Nat.testBit_shiftLeft, Nat.testBit_two_pow_sub_one]
    by_cases h2 : i < 32
    · have : ¬ (i ≥ 32) := by omega
      simp [this]
    · have : n.testBit i = false := Nat.testBit_lt_two_pow (Nat.lt_of_lt_of_le h (Nat.pow_le_pow_right (n := 2) (i := 32) (by decide) (by omega)))
      simp [this]

/-- Comparison of the low half. -/
theorem low_eq (y v : UInt64): (y &&& 0xFFFFFFFF = v) ↔ y.toNat % 4294967296 = v.toNat := by
  rw [← UInt64.toNat_inj, UInt64.toNat_and]
  have hm : (0xFFFFFFFF : UInt64).toNat = 2 ^ 32 - 1 := by decide
  rw [hm, Nat.and_two_pow_sub_one_eq_mod]

theorem i32AsU64_lt (x : Int32) : (i32AsU64 x).toNat < 4294967296 ↔ 0 ≤ x.toInt := by
  have h1 := x.toInt_lt
  have h2 := x.le_toInt
  unfold i32AsU64 UInt64.ofInt
  generalize x.toInt = i at *
  simp only [UInt64.toNat_ofNat']
  omega

/-! ## The meaning of a sequence of additions -/

theorem get_apply (map : SecRules) (x : SecAdd) (s : Sys) :
    assocGet (x.apply map) s = if x.1 = s then some ((assocGet map s).getD [] ++ x.2.toList) else assocGet map s := by
  obtain ⟨t, r⟩ := x
  by_cases h : t = s
  · subst h
    rw [if_pos rfl]
    cases r with
    | none =>
      simp only [SecAdd.apply, addSys]
      cases hg : assocGet map t with
      | none => simp [assocGet_set_self]
      | some v => simp [hg]
    | some rule => simp [SecAdd.apply, addSysArgs, assocGet_set_self]
  · rw [if_neg h]
    cases r with
    | none =>
      simp only [SecAdd.apply, addSys]
      cases assocGet map t with
      | none => exact assocGet_set_ne _ _ (fun e => h e.symm)
      | some v => rfl
    | some rule => exact assocGet_set_ne _ _ (fun e => h e.symm)

/-- The rules for a call, if it has been added. -/
def rulesOf (s : Sys) (adds : List SecAdd) : Option (List SecRule) :=
  if adds.any (fun x => x.1 = s) then some (adds.flatMap fun x => if x.1 = s then x.2.toList else []) else none

theorem get_foldl (adds : List SecAdd) (map : SecRules) (s : Sys) :
    assocGet (adds.foldl SecAdd.apply map) s =
      match rulesOf s adds with
      | none => assocGet map s
      | some r => some ((assocGet map s).getD [] ++ r) := by
  induction adds generalizing map with
  | nil => rfl
  | cons x adds ih =>
    rw [List.foldl_cons, ih, get_apply]
    by_cases h : x.1 = s
    · simp only [rulesOf, List.any_cons, h, decide_true, Bool.true_or, if_true, List.flatMap_cons]
      split
      · rename_i hno
        split at hno
        · cases hno
        · rename_i hany
          have : (adds.flatMap fun x => if x.1 = s then x.2.toList else []) = [] := by
            rw [List.flatMap_eq_nil_iff]
            intro y hy
            rw [if_neg]
            intro hys
            exact hany (List.any_eq_true.2 ⟨y, hy, by simpa using hys⟩)
          simp [this]
      · rename_i r hr
        split at hr
        · injection hr with hr
          subst hr
          simp
        · cases hr
    · simp only [rulesOf, List.any_cons, h, decide_false, Bool.false_or, if_false, List.flatMap_cons, List.nil_append]

/-- All additions of a list. -/
def collectAdds (p : SecPlatform) : List Allow → R (List SecAdd)
  | [] => .ok []
  | a :: rest => do
    let x ← allowAdds p a
    let y ← collectAdds p rest
    .ok (x ++ y)

theorem compileLoop_eq (p : SecPlatform) (l : List Allow) (map : SecRules) :
    compileLoop p map l = (collectAdds p l >>= fun adds => .ok (adds.foldl SecAdd.apply map)) := by
  induction l generalizing map with
  | nil => rfl
  | cons a l ih =>
    rw [compileLoop, collectAdds]
    cases allowAdds p a with
    | err => rfl
    | panic => rfl
    | ok x =>
      simp only [R.bind_ok, ih]
      cases collectAdds p l with
      | err => rfl
      | panic => rfl
      | ok y => simp

theorem mem_collectAdds {p : SecPlatform} {l : List Allow} {adds : List SecAdd} (h : collectAdds p l = .ok adds) (x : SecAdd) :
    x ∈ adds ↔ ∃ a ∈ l, ∃ xs, allowAdds p a = .ok xs ∧ x ∈ xs := by
  induction l generalizing adds with
  | nil => simp only [collectAdds, R.ok.injEq] at h; subst h; simp
  | cons a l ih =>
    rw [collectAdds, R.bind_eq_ok] at h
    obtain ⟨xs, hx, h⟩ := h
    rw [R.bind_eq_ok] at h
    obtain ⟨ys, hy, h⟩ := h
    injection h with h
    subst h
    rw [List.mem_append, ih hy]
    constructor
    · rintro (h | ⟨b, hb, zs, hz, hm⟩)
      · exact ⟨a, by simp, xs, hx, h⟩
      · exact ⟨b, by simp [hb], zs, hz, hm⟩
    · rintro ⟨b, hb, zs, hz, hm⟩
      rcases List.mem_cons.1 hb with rfl | hb
      · rw [hx] at hz
        injection hz with hz
        subst hz
        exact .inl hm
      · exact .inr ⟨b, hb, zs, hz, hm⟩

theorem collect_ok_iff {p : SecPlatform} {l : List Allow} : (∃ adds, collectAdds p l = .ok adds) ↔ ∀ a ∈ l, ∃ xs, allowAdds p a = .ok xs := by
  induction l with
  | nil => simp [collectAdds]
  | cons a l ih =>
    constructor
    · rintro ⟨adds, h⟩
      rw [collectAdds, R.bind_eq_ok] at h
      obtain ⟨xs, hx, h⟩ := h
      rw [R.bind_eq_ok] at h
      obtain ⟨ys, hy, _⟩ := h
      intro b hb
      rcases List.mem_cons.1 hb with rfl | hb
      · exact ⟨xs, hx⟩
      · exact ih.1 ⟨ys, hy⟩ b hb
    · intro h
      obtain ⟨xs, hx⟩ := h a (by simp)
      obtain ⟨ys, hy⟩ := ih.2 (fun b hb => h b (by simp [hb]))
      exact ⟨xs ++ ys, by rw [collectAdds, hx, R.bind_ok, hy, R.bind_ok]⟩

/-- What a filter permits, in terms of the additions. -/
theorem permits_adds (adds : List SecAdd) (deny : SecAction) (s : Sys) (args : SysArgs) :
    SecFilter.permits ⟨adds.foldl SecAdd.apply [], deny⟩ s args = true ↔
      (∃ r, (s, some r) ∈ adds ∧ ∀ c ∈ r, c.holds args = true) ∨ ((s, none) ∈ adds ∧ ∀ r, (s, some r) ∉ adds) := by
  unfold SecFilter.permits
  simp only [get_foldl]
  have hmem : ∀ r, r ∈ (adds.flatMap fun x => if x.1 = s then x.2.toList else []) ↔ (s, some r) ∈ adds := by
    intro r
    rw [List.mem_flatMap]
    constructor
    · rintro ⟨⟨t, o⟩, hx, hr⟩
      split at hr
      · rename_i ht
        have ht : t = s := ht
        subst ht
        cases o with
        | none => cases hr
        | some r' => simp at hr; subst hr; exact hx
      · cases hr
    · intro h
      exact ⟨_, h, by simp⟩
  by_cases hany : adds.any (fun x => x.1 = s) = true
  · simp only [rulesOf, hany, if_true, assocGet, Option.getD_none, List.nil_append, Bool.or_eq_true, List.isEmpty_iff, List.any_eq_true,
      List.all_eq_true, hmem]
    obtain ⟨⟨t, o⟩, hx, ht⟩ := List.any_eq_true.1 hany
    have ht : t = s := by simpa using ht
    subst ht
    constructor
    · rintro (h | ⟨r, h1, h2⟩)
      · have hnone : ∀ r, (t, some r) ∉ adds := by
          intro r hr
          have := (hmem r).2 hr
          rw [h] at this
          cases this
        cases o with
        | none => exact .inr ⟨hx, hnone⟩
        | some r => exact absurd hx (hnone r)
      · exact .inl ⟨r, h1, h2⟩
    · rintro (⟨r, h1, h2⟩ | ⟨_, h2⟩)
      · exact .inr ⟨r, h1, h2⟩
      · refine .inl (List.eq_nil_iff_forall_not_mem.2 fun r hr => ?_)
        exact h2 r ((hmem r).1 hr)
  · simp only [rulesOf, if_neg hany, assocGet, Bool.false_eq_true, false_iff]
    rintro (⟨r, h, _⟩ | ⟨h, _⟩)
    · exact hany (List.any_eq_true.2 ⟨_, h, by simp⟩)
    · exact hany (List.any_eq_true.2 ⟨_, h, by simp⟩)

theorem compile_eq {p : SecPlatform} {l : List Allow} {d : SecAction} {f : SecFilter} :
    SecFilter.compile p l d = .ok f ↔ l ≠ [] ∧ ∃ adds, collectAdds p l = .ok adds ∧ f = ⟨(baseAdds p ++ adds).foldl SecAdd.apply [], d⟩ := by
  unfold SecFilter.compile
  rw [compileLoop_eq]
  cases l with
  | nil => simp [rassert]
  | cons a l =>
    simp only [List.isEmpty_cons, Bool.not_false, rassert, if_true, R.bind_ok, ne_eq, reduceCtorEq, not_false_eq_true, true_and]
    cases collectAdds p (a :: l) with
    | err => simp
    | panic => simp
    | ok adds => simp [eq_comm]

theorem compile_permits {p : SecPlatform} {l : List Allow} {d : SecAction} {f : SecFilter} (h : SecFilter.compile p l d = .ok f) (s : Sys) (args : SysArgs) :
    f.permits s args = true ↔
      (∃ a ∈ l, ∃ xs, allowAdds p a = .ok xs ∧ ∃ r, (s, some r) ∈ xs ∧ ∀ c ∈ r, c.holds args = true) ∨
      (((s, none) ∈ baseAdds p ∨ ∃ a ∈ l, ∃ xs, allowAdds p a = .ok xs ∧ (s, none) ∈ xs) ∧
        ∀ a ∈ l, ∀ xs, allowAdds p a = .ok xs → ∀ r, (s, some r) ∉ xs) := by
  obtain ⟨_, adds, hadds, rfl⟩ := compile_eq.1 h
  rw [permits_adds]
  have hm := mem_collectAdds hadds
  have hbase : ∀ s r, (s, some r) ∉ baseAdds p := by
    intro s r
    simp [baseAdds, plainSys, cfg]
  simp only [List.mem_append, hm, hbase, false_or]
  constructor
  · rintro (⟨r, ⟨a, ha, xs, hx, h1⟩, h2⟩ | ⟨h1, h2⟩)
    · exact .inl ⟨a, ha, xs, hx, r, h1, h2⟩
    · exact .inr ⟨h1, fun a ha xs hx r hr => h2 r ⟨a, ha, xs, hx, hr⟩⟩
  · rintro (⟨a, ha, xs, hx, r, h1, h2⟩ | ⟨h1, h2⟩)
    · exact .inl ⟨r, ⟨a, ha, xs, hx, h1⟩, h2⟩
    · exact .inr ⟨h1, fun r ⟨a, ha, xs, hx, hr⟩ => h2 a ha xs hx r hr⟩

/-! ## C47: the union -/

/-- **C47** (safety, for all lists). The filter of a list permits nothing that no entry permits. -/
theorem C47_nothing_else {p : SecPlatform} {l : List Allow} {d : SecAction} {f : SecFilter} (h : SecFilter.compile p l d = .ok f) (s : Sys)
    (args : SysArgs) (hp : f.permits s args = true) :
    ∃ a ∈ l, ∃ g, SecFilter.compile p [a] d = .ok g ∧ g.permits s args = true := by
  obtain ⟨hne, adds, hadds, _⟩ := compile_eq.1 h
  have hsingle : ∀ a ∈ l, ∃ g, SecFilter.compile p [a] d = .ok g := by
    intro a ha
    obtain ⟨xs, hx⟩ := collect_ok_iff.1 ⟨adds, hadds⟩ a ha
    exact ⟨_, compile_eq.2 ⟨by simp, _, by rw [collectAdds, hx, R.bind_ok, collectAdds, R.bind_ok], rfl⟩⟩
  rcases (compile_permits h s args).1 hp with ⟨a, ha, xs, hx, r, h1, h2⟩ | ⟨h1, h2⟩
  · obtain ⟨g, hg⟩ := hsingle a ha
    exact ⟨a, ha, g, hg, (compile_permits hg s args).2 (.inl ⟨a, by simp, xs, hx, r, h1, h2⟩)⟩
  · rcases h1 with h1 | ⟨a, ha, xs, hx, h1⟩
    · cases l with
      | nil => exact absurd rfl hne
      | cons a l =>
        obtain ⟨g, hg⟩ := hsingle a (by simp)
        refine ⟨a, by simp, g, hg, (compile_permits hg s args).2 (.inr ⟨.inl h1, ?_⟩)⟩
        intro b hb
        exact h2 b (by simp at hb; simp [hb])
    · obtain ⟨g, hg⟩ := hsingle a ha
      refine ⟨a, ha, g, hg, (compile_permits hg s args).2 (.inr ⟨.inr ⟨a, by simp, xs, hx, h1⟩, ?_⟩)⟩
      intro b hb
      simp only [List.mem_singleton] at hb
      subst hb
      exact h2 b ha

theorem socketAdd_ok {v : UInt64} {x : SecAdd} (h : socketAdd v = .ok x) : x = (.named .socket, some [⟨0, true, v⟩]) := by
  simp only [socketAdd, seccompCond] at h
  rw [R.bind_eq_ok] at h
  obtain ⟨c, hc, h⟩ := h
  split at hc
  · cases hc
  · injection hc with hc
    injection h with h
    rw [← h, ← hc]

/-- Which entries restrict a call. -/
theorem some_mem_allowAdds {p : SecPlatform} {a : Allow} {xs : List SecAdd} (h : allowAdds p a = .ok xs) {s : Sys} {r : SecRule} (hm : (s, some r) ∈ xs) :
    s = .named .socket ∨ s = .named .prlimit64 ∨ (s = .named .setsockopt ∧ ∃ x, a = .SetSockOpt (some x)) ∨
      (s = .named .fcntl ∧ ∃ op, a = .Fcntl (some op)) := by
  have hplain : ∀ l : List SysName, (s, some r) ∉ plainSys l := by intro l; simp [plainSys]
  have hcfg : ∀ b (l : List SysName), (s, some r) ∉ cfg b (plainSys l) := by
    intro b l; unfold cfg; split
    · exact hplain l
    · simp
  cases a with
  | UnixAccept | UnixConnect | Netlink =>
    simp only [allowAdds] at h
    rw [R.bind_eq_ok] at h
    obtain ⟨x, hx, h⟩ := h
    have hx := socketAdd_ok hx
    subst hx
    injection h with h
    subst h
    simp only [List.mem_append, hplain, List.mem_singleton, Prod.mk.injEq, false_or, or_false] at hm
    exact .inl hm.1
  | TcpAccept | TcpConnect =>
    simp only [allowAdds] at h
    rw [R.bind_eq_ok] at h
    obtain ⟨x, hx, h⟩ := h
    rw [R.bind_eq_ok] at h
    obtain ⟨y, hy, h⟩ := h
    have hx := socketAdd_ok hx
    have hy := socketAdd_ok hy
    subst hx hy
    injection h with h
    subst h
    simp only [List.mem_append, hplain, List.mem_cons, List.not_mem_nil, Prod.mk.injEq, false_or, or_false] at hm
    rcases hm with hm | hm <;> exact .inl hm.1
  | SetSockOpt o =>
    cases o with
    | none => injection h with h; subst h; exact absurd hm (hplain _)
    | some x =>
      obtain ⟨x1, x2⟩ := x
      simp only [allowAdds] at h
      rw [R.bind_eq_ok] at h
      obtain ⟨c1, _, h⟩ := h
      rw [R.bind_eq_ok] at h
      obtain ⟨c2, _, h⟩ := h
      injection h with h
      subst h
      simp at hm
      exact .inr (.inr (.inl ⟨hm.1, _, rfl⟩))
  | Fcntl o =>
    cases o with
    | none => injection h with h; subst h; exact absurd hm (hplain _)
    | some op =>
      simp only [allowAdds] at h
      rw [R.bind_eq_ok] at h
      obtain ⟨c1, _, h⟩ := h
      injection h with h
      subst h
      simp at hm
      exact .inr (.inr (.inr ⟨hm.1, _, rfl⟩))
  | GetRlimit =>
    simp only [allowAdds] at h
    rw [R.bind_eq_ok] at h
    obtain ⟨c1, _, h⟩ := h
    rw [R.bind_eq_ok] at h
    obtain ⟨c2, _, h⟩ := h
    injection h with h
    subst h
    simp at hm
    exact .inr (.inl hm.1)
  | _ =>
    exfalso
    injection h with h
    subst h
    simp only [readWriteAdds, List.mem_append, hplain, hcfg, or_self] at hm

/-- Which entries permit such a call without restriction. -/
theorem none_mem_allowAdds {p : SecPlatform} {a : Allow} {xs : List SecAdd} (h : allowAdds p a = .ok xs) {n : SysName} (hm : (.named n, none) ∈ xs) :
    n ≠ .socket ∧ n ≠ .prlimit64 ∧ (n = .setsockopt → a = .SetSockOpt none) ∧ (n = .fcntl → a = .Fcntl none) := by
  have hplain : ∀ {l : List SysName}, (Sys.named n, (none : Option SecRule)) ∈ plainSys l → n ∈ l := by
    intro l hm
    simp [plainSys] at hm
    exact hm
  have hcfg : ∀ {b} {l : List SysName}, (Sys.named n, (none : Option SecRule)) ∈ cfg b (plainSys l) → n ∈ l := by
    intro b l hm
    unfold cfg at hm
    split at hm
    · exact hplain hm
    · cases hm
  cases a with
  | UnixAccept | UnixConnect | Netlink =>
    simp only [allowAdds] at h
    rw [R.bind_eq_ok] at h
    obtain ⟨x, hx, h⟩ := h
    have hx := socketAdd_ok hx
    subst hx
    injection h with h
    subst h
    simp only [List.mem_append, List.mem_singleton, Prod.mk.injEq, reduceCtorEq, and_false, or_false] at hm
    rcases hm with hm | hm <;> (have := hplain hm; simp at this; rcases this with rfl | rfl | rfl <;> simp)
  | TcpAccept | TcpConnect =>
    simp only [allowAdds] at h
    rw [R.bind_eq_ok] at h
    obtain ⟨x, hx, h⟩ := h
    rw [R.bind_eq_ok] at h
    obtain ⟨y, hy, h⟩ := h
    have hx := socketAdd_ok hx
    have hy := socketAdd_ok hy
    subst hx hy
    injection h with h
    subst h
    simp only [List.mem_append, List.mem_cons, List.not_mem_nil, Prod.mk.injEq, reduceCtorEq, and_false, or_false] at hm
    rcases hm with hm | hm <;> (have := hplain hm; simp at this; rcases this with rfl | rfl | rfl <;> simp)
  | SetSockOpt o =>
    cases o with
    | none => injection h with h; subst h; have := hplain hm; simp at this; subst this; simp
    | some x =>
      obtain ⟨x1, x2⟩ := x
      simp only [allowAdds] at h
      rw [R.bind_eq_ok] at h
      obtain ⟨c1, _, h⟩ := h
      rw [R.bind_eq_ok] at h
      obtain ⟨c2, _, h⟩ := h
      injection h with h
      subst h
      simp at hm
  | Fcntl o =>
    cases o with
    | none => injection h with h; subst h; have := hplain hm; simp at this; subst this; simp
    | some op =>
      simp only [allowAdds] at h
      rw [R.bind_eq_ok] at h
      obtain ⟨c1, _, h⟩ := h
      injection h with h
      subst h
      simp at hm
  | GetRlimit =>
    simp only [allowAdds] at h
    rw [R.bind_eq_ok] at h
    obtain ⟨c1, _, h⟩ := h
    rw [R.bind_eq_ok] at h
    obtain ⟨c2, _, h⟩ := h
    injection h with h
    subst h
    simp at hm
  | _ =>
    injection h with h
    subst h
    refine ⟨?_, ?_, ?_, ?_⟩
    all_goals
      rintro rfl
      simp [readWriteAdds, plainSys, cfg] at hm

/-- **C47** (partial: lists without an unrestricted beside a restricted entry for `fcntl` or `setsockopt`). A call is permitted by the filter of a list
if and only if it is permitted by the filter of some entry. -/
theorem C47_union_partial {p : SecPlatform} {l : List Allow} {d : SecAction} {f : SecFilter} (h : SecFilter.compile p l d = .ok f) (hmix : NoMix l)
    (s : Sys) (args : SysArgs) :
    f.permits s args = true ↔ ∃ a ∈ l, ∃ g, SecFilter.compile p [a] d = .ok g ∧ g.permits s args = true := by
  refine ⟨C47_nothing_else h s args, ?_⟩
  rintro ⟨a, ha, g, hg, hp⟩
  rcases (compile_permits hg s args).1 hp with ⟨b, hb, xs, hx, r, h1, h2⟩ | ⟨h1, h2⟩
  · simp only [List.mem_singleton] at hb
    subst hb
    exact (compile_permits h s args).2 (.inl ⟨b, ha, xs, hx, r, h1, h2⟩)
  · refine (compile_permits h s args).2 (.inr ⟨?_, ?_⟩)
    · rcases h1 with h1 | ⟨b, hb, xs, hx, h1⟩
      · exact .inl h1
      · simp only [List.mem_singleton] at hb
        subst hb
        exact .inr ⟨b, ha, xs, hx, h1⟩
    · intro b hb xs hx r hr
      have hs := some_mem_allowAdds hx hr
      have hbase : ∀ n, (.named n, none) ∈ baseAdds p → n ≠ .socket ∧ n ≠ .prlimit64 ∧ n ≠ .setsockopt ∧ n ≠ .fcntl := by
        intro n hn
        refine ⟨?_, ?_, ?_, ?_⟩
        all_goals
          rintro rfl
          simp [baseAdds, plainSys, cfg] at hn
      rcases h1 with h1 | ⟨c, hc, ys, hy, h1⟩
      · rcases hs with rfl | rfl | ⟨rfl, _⟩ | ⟨rfl, _⟩
        · exact (hbase _ h1).1 rfl
        · exact (hbase _ h1).2.1 rfl
        · exact (hbase _ h1).2.2.1 rfl
        · exact (hbase _ h1).2.2.2 rfl
      · simp only [List.mem_singleton] at hc
        subst hc
        rcases hs with rfl | rfl | ⟨rfl, x, rfl⟩ | ⟨rfl, op, rfl⟩
        · exact (none_mem_allowAdds hy h1).1 rfl
        · exact (none_mem_allowAdds hy h1).2.1 rfl
        · have := (none_mem_allowAdds hy h1).2.2.1 rfl
          subst this
          exact hmix.setsockopt ha x hb
        · have := (none_mem_allowAdds hy h1).2.2.2 rfl
          subst this
          exact hmix.fcntl ha op hb

/-- **C47 is false** for other lists: an entry with a restriction takes away what another entry permits. -/
theorem C47_negation : ∃ (l : List Allow) (f g : SecFilter), SecFilter.compile ⟨true, true⟩ l .Kill = .ok f ∧ .Fcntl none ∈ l ∧
    SecFilter.compile ⟨true, true⟩ [.Fcntl none] .Kill = .ok g ∧ ∃ args, g.permits (.named .fcntl) args = true ∧ f.permits (.named .fcntl) args = false := by
  refine ⟨[.Fcntl none, .Fcntl (some F_GETFD)], _, _, rfl, by simp, rfl, fun _ => 0, by decide, by decide⟩

/-- **C47**. Compilation succeeds for every list except the empty one and those with negative numbers for `setsockopt`, which panic. -/
theorem C47_compile_ok_iff (p : SecPlatform) (l : List Allow) (d : SecAction) :
    (∃ f, SecFilter.compile p l d = .ok f) ↔ l ≠ [] ∧ ∀ x y, .SetSockOpt (some (x, y)) ∈ l → 0 ≤ x.toInt ∧ 0 ≤ y.toInt := by
  have hcond : ∀ (i : Nat) (x : Int32), (∃ c, seccompCond i (i32AsU64 x) true = .ok c) ↔ 0 ≤ x.toInt := by
    intro i x
    have e : (i32AsU64 x &&& 0xFFFFFFFF00000000 ≠ 0) ↔ ¬ 0 ≤ x.toInt := by
      rw [ne_eq, hi_zero, i32AsU64_lt]
    unfold seccompCond
    by_cases hx : 0 ≤ x.toInt
    · rw [if_neg (by simp only [Bool.true_and, decide_eq_true_eq]; intro h; exact (e.1 h) hx)]
      simp [hx]
    · rw [if_pos (by simp only [Bool.true_and, decide_eq_true_eq]; exact e.2 hx)]
      simp [hx]
  have hu32 : ∀ (i : Nat) (x : UInt32), seccompCond i x.toUInt64 true = .ok ⟨i, true, x.toUInt64⟩ := by
    intro i x
    have h : x.toUInt64 &&& 0xFFFFFFFF00000000 = 0 := by
      rw [hi_zero, UInt32.toNat_toUInt64]
      exact x.toNat_lt
    unfold seccompCond
    rw [if_neg (by simp [h])]
  have h1 : socketAdd AF_UNIX = .ok (.named .socket, some [⟨0, true, 1⟩]) := by decide
  have h2 : socketAdd AF_INET = .ok (.named .socket, some [⟨0, true, 2⟩]) := by decide
  have h3 : socketAdd AF_INET6 = .ok (.named .socket, some [⟨0, true, 10⟩]) := by decide
  have h4 : socketAdd AF_NETLINK = .ok (.named .socket, some [⟨0, true, 16⟩]) := by decide
  have h5 : seccompCond 0 0 true = .ok ⟨0, true, 0⟩ := by decide
  have h6 : seccompCond 2 0 false = .ok ⟨2, false, 0⟩ := by decide
  have hall : ∀ a, (∃ xs, allowAdds p a = .ok xs) ↔ ∀ x y, a = .SetSockOpt (some (x, y)) → 0 ≤ x.toInt ∧ 0 ≤ y.toInt := by
    intro a
    cases a with
    | SetSockOpt o =>
      cases o with
      | none => simp [allowAdds]
      | some z =>
        obtain ⟨x, y⟩ := z
        simp only [allowAdds, Allow.SetSockOpt.injEq, Option.some.injEq, Prod.mk.injEq, and_imp]
        have h1 := hcond 1 x
        have h2 := hcond 2 y
        constructor
        · rintro ⟨xs, h⟩ x' y' rfl rfl
          rw [R.bind_eq_ok] at h
          obtain ⟨c1, hc1, h⟩ := h
          rw [R.bind_eq_ok] at h
          obtain ⟨c2, hc2, _⟩ := h
          exact ⟨h1.1 ⟨c1, hc1⟩, h2.1 ⟨c2, hc2⟩⟩
        · intro h
          obtain ⟨hx, hy⟩ := h x y rfl rfl
          obtain ⟨c1, hc1⟩ := h1.2 hx
          obtain ⟨c2, hc2⟩ := h2.2 hy
          exact ⟨_, by rw [hc1, R.bind_ok, hc2, R.bind_ok]⟩
    | Fcntl o =>
      cases o with
      | none => simp [allowAdds]
      | some op => simp [allowAdds, hu32]
    | _ => simp only [allowAdds, h1, h2, h3, h4, h5, h6, R.bind_ok]; simp
  constructor
  · rintro ⟨f, h⟩
    obtain ⟨hne, adds, hadds, _⟩ := compile_eq.1 h
    refine ⟨hne, fun x y hm => ?_⟩
    exact (hall _).1 (collect_ok_iff.1 ⟨adds, hadds⟩ _ hm) x y rfl
  · rintro ⟨hne, h⟩
    obtain ⟨adds, hadds⟩ := (collect_ok_iff (p := p)).2 fun a ha => (hall a).2 fun x y e => h x y (e ▸ ha)
    exact ⟨_, compile_eq.2 ⟨hne, adds, hadds, rfl⟩⟩

/-! ## C47: the three programs -/

/-- Calls added without rule. -/
def plainOf (adds : List SecAdd) : List Sys := adds.filterMap fun x => if x.2.isNone then some x.1 else none
/-- Calls added with a rule. -/
def condOf (adds : List SecAdd) : List (Sys × SecRule) := adds.filterMap fun x => x.2.map fun r => (x.1, r)

theorem mem_plainOf {adds : List SecAdd} {s : Sys} : s ∈ plainOf adds ↔ (s, none) ∈ adds := by
  simp only [plainOf, List.mem_filterMap]
  constructor
  · rintro ⟨⟨t, o⟩, hx, h⟩
    cases o with
    | none => simp at h; subst h; exact hx
    | some r => simp at h
  · intro h
    exact ⟨_, h, by simp⟩

theorem mem_condOf {adds : List SecAdd} {s : Sys} {r : SecRule} : (s, r) ∈ condOf adds ↔ (s, some r) ∈ adds := by
  simp only [condOf, List.mem_filterMap]
  constructor
  · rintro ⟨⟨t, o⟩, hx, h⟩
    cases o with
    | none => simp at h
    | some r' => simp at h; obtain ⟨rfl, rfl⟩ := h; exact hx
  · intro h
    exact ⟨_, h, by simp⟩

/-- A list of calls and rules describes what the entries add. -/
def describes (p : SecPlatform) (l : List Allow) (calls : List SysName) (conds : List (Sys × SecRule)) : Bool :=
  match collectAdds p l with
  | .ok adds =>
    let all := baseAdds p ++ adds
    (plainOf all).all (fun s => calls.any (fun n => s = .named n)) && calls.all (fun n => (plainOf all).any (fun s => s = .named n)) &&
      condOf all = conds && conds.all (fun e => calls.all (fun n => e.1 ≠ .named n))
  | _ => false

theorem describes_permits {p : SecPlatform} {l : List Allow} {calls : List SysName} {conds : List (Sys × SecRule)} (hd : describes p l calls conds = true)
    {d : SecAction} {f : SecFilter} (h : SecFilter.compile p l d = .ok f) (s : Sys) (args : SysArgs) :
    f.permits s args = true ↔ (∃ n ∈ calls, s = .named n) ∨ ∃ e ∈ conds, s = e.1 ∧ ∀ c ∈ e.2, c.holds args = true := by
  obtain ⟨_, adds, hadds, rfl⟩ := compile_eq.1 h
  unfold describes at hd
  rw [hadds] at hd
  simp only [Bool.and_eq_true, List.all_eq_true, List.any_eq_true, decide_eq_true_eq] at hd
  obtain ⟨⟨⟨h1, h2⟩, h3⟩, h4⟩ := hd
  rw [permits_adds]
  simp only [← mem_plainOf, ← mem_condOf]
  rw [h3]
  constructor
  · rintro (⟨r, hr, hc⟩ | ⟨hs, _⟩)
    · exact .inr ⟨_, hr, rfl, hc⟩
    · exact .inl (h1 s hs)
  · rintro (⟨n, hn, rfl⟩ | ⟨⟨t, r⟩, he, rfl, hc⟩)
    · refine .inr ⟨?_, fun r hr => ?_⟩
      · obtain ⟨s, hs, rfl⟩ := h2 n hn
        exact hs
      · exact h4 _ hr n hn rfl
    · exact .inl ⟨r, he, hc⟩

theorem cond_low (i : Nat) (v : UInt64) (args : SysArgs) : (SecCond.mk i true v).holds args = true ↔ low32 (args i) = v.toNat := by
  simp only [SecCond.holds, if_true, decide_eq_true_eq]
  exact low_eq _ _

/-- The rules for `socket`. -/
def socketRule (family : UInt64) : Sys × SecRule := (.named .socket, [⟨0, true, family⟩])
/-- The rule for `fcntl`. -/
def fcntlRule : Sys × SecRule := (.named .fcntl, [⟨1, true, 1⟩])
/-- The rule for `setsockopt`. -/
def sockoptRule : Sys × SecRule := (.named .setsockopt, [⟨1, true, 6⟩, ⟨2, true, 1⟩])

/-- **C47** for letmeind: exactly these calls are permitted, `socket` only for Unix (1), IPv4 (2) and IPv6 (10), `fcntl` only with `F_GETFD` (1),
`setsockopt` only for `TCP_NODELAY` (level 6, option 1). -/
theorem C47_letmeind {p : SecPlatform} {d : SecAction} {f : SecFilter} (h : SecFilter.compile p letmeindAllow d = .ok f) (s : Sys) (args : SysArgs) :
    f.permits s args = true ↔ (∃ n ∈ letmeindCalls p, s = .named n) ∨
      (s = .named .socket ∧ (low32 (args 0) = 1 ∨ low32 (args 0) = 2 ∨ low32 (args 0) = 10)) ∨
      (s = .named .fcntl ∧ low32 (args 1) = 1) ∨ (s = .named .setsockopt ∧ low32 (args 1) = 6 ∧ low32 (args 2) = 1) := by
  have hd : describes p letmeindAllow (letmeindCalls p) [fcntlRule, socketRule 2, socketRule 10, socketRule 1, sockoptRule] = true := by
    obtain ⟨a, b⟩ := p
    cases a <;> cases b <;> decide +kernel
  rw [describes_permits hd h]
  simp only [List.mem_cons, List.not_mem_nil, or_false, exists_eq_or_imp, exists_eq_left, fcntlRule, socketRule, sockoptRule, forall_eq_or_imp, forall_eq,
    cond_low]
  have e1 : (1 : UInt64).toNat = 1 := rfl
  have e2 : (2 : UInt64).toNat = 2 := rfl
  have e6 : (6 : UInt64).toNat = 6 := rfl
  have e10 : (10 : UInt64).toNat = 10 := rfl
  rw [e1, e2, e6, e10]
  grind

/-- **C47** for letmein. -/
theorem C47_letmein {p : SecPlatform} {d : SecAction} {f : SecFilter} (h : SecFilter.compile p letmeinAllow d = .ok f) (s : Sys) (args : SysArgs) :
    f.permits s args = true ↔ (∃ n ∈ letmeinCalls p, s = .named n) ∨
      (s = .named .socket ∧ (low32 (args 0) = 2 ∨ low32 (args 0) = 10)) ∨
      (s = .named .fcntl ∧ low32 (args 1) = 1) ∨ (s = .named .setsockopt ∧ low32 (args 1) = 6 ∧ low32 (args 2) = 1) := by
  have hd : describes p letmeinAllow (letmeinCalls p) [fcntlRule, socketRule 2, socketRule 10, sockoptRule] = true := by
    obtain ⟨a, b⟩ := p
    cases a <;> cases b <;> decide +kernel
  rw [describes_permits hd h]
  simp only [List.mem_cons, List.not_mem_nil, or_false, exists_eq_or_imp, exists_eq_left, fcntlRule, socketRule, sockoptRule, forall_eq_or_imp, forall_eq,
    cond_low]
  have e1 : (1 : UInt64).toNat = 1 := rfl
  have e2 : (2 : UInt64).toNat = 2 := rfl
  have e6 : (6 : UInt64).toNat = 6 := rfl
  have e10 : (10 : UInt64).toNat = 10 := rfl
  rw [e1, e2, e6, e10]
  grind

/-- **C47** for letmeinfwd: `socket` only for Unix (1) and netlink (16), `prlimit64` only for reading its own limits (pid 0, no new limit). -/
theorem C47_letmeinfwd {p : SecPlatform} {d : SecAction} {f : SecFilter} (h : SecFilter.compile p letmeinfwdAllow d = .ok f) (s : Sys) (args : SysArgs) :
    f.permits s args = true ↔ (∃ n ∈ letmeinfwdCalls p, s = .named n) ∨
      (s = .named .socket ∧ (low32 (args 0) = 1 ∨ low32 (args 0) = 16)) ∨
      (s = .named .prlimit64 ∧ low32 (args 0) = 0 ∧ args 2 = 0) := by
  have hd : describes p letmeinfwdAllow (letmeinfwdCalls p) [socketRule 1, socketRule 16, (.named .prlimit64, [⟨0, true, 0⟩, ⟨2, false, 0⟩])] = true := by
    obtain ⟨a, b⟩ := p
    cases a <;> cases b <;> decide +kernel
  rw [describes_permits hd h]
  have hq : (SecCond.mk 2 false 0).holds args = true ↔ args 2 = 0 := by simp [SecCond.holds]
  simp only [List.mem_cons, List.not_mem_nil, or_false, exists_eq_or_imp, exists_eq_left, socketRule, forall_eq_or_imp, forall_eq, cond_low, hq]
  have e0 : (0 : UInt64).toNat = 0 := rfl
  have e1 : (1 : UInt64).toNat = 1 := rfl
  have e16 : (16 : UInt64).toNat = 16 := rfl
  rw [e0, e1, e16]
  grind

/-- **C47**. letmeind cannot run programs, open files, signal processes, change its identity or change the system, with whatever arguments; nor can it
make any call unknown to the source. -/
theorem C47_letmeind_harmless {p : SecPlatform} {d : SecAction} {f : SecFilter} (h : SecFilter.compile p letmeindAllow d = .ok f) (args : SysArgs) :
    (∀ n ∈ powerfulCalls, f.permits (.named n) args = false) ∧ ∀ nr, f.permits (.other nr) args = false := by
  have key : ∀ s, f.permits s args = true → ∃ n ∈ letmeindCalls ⟨true, true⟩ ++ [.socket, .fcntl, .setsockopt], s = .named n := by
    intro s hs
    have hsub : ∀ n ∈ letmeindCalls p, n ∈ letmeindCalls ⟨true, true⟩ := by
      obtain ⟨a, b⟩ := p
      cases a <;> cases b <;> decide +kernel
    rcases (C47_letmeind h s args).1 hs with ⟨n, hn, rfl⟩ | ⟨rfl, _⟩ | ⟨rfl, _⟩ | ⟨rfl, _⟩
    · exact ⟨n, by simp [hsub n hn], rfl⟩
    · exact ⟨_, by simp, rfl⟩
    · exact ⟨_, by simp, rfl⟩
    · exact ⟨_, by simp, rfl⟩
  constructor
  · intro n hn
    cases hp : f.permits (.named n) args with
    | false => rfl
    | true =>
      obtain ⟨m, hm, e⟩ := key _ hp
      injection e with e
      subst e
      have : ∀ n ∈ powerfulCalls, n ∉ letmeindCalls ⟨true, true⟩ ++ [.socket, .fcntl, .setsockopt] := by decide +kernel
      exact absurd hm (this n hn)
  · intro nr
    cases hp : f.permits (.other nr) args with
    | false => rfl
    | true =>
      obtain ⟨m, hm, e⟩ := key _ hp
      cases e

/-- The three lists compile on all platforms, and none of them mixes. -/
example : ∀ p : SecPlatform, ∀ d, (∃ f, SecFilter.compile p letmeindAllow d = .ok f) ∧ (∃ f, SecFilter.compile p letmeinAllow d = .ok f) ∧
    ∃ f, SecFilter.compile p letmeinfwdAllow d = .ok f := by
  intro p d
  simp only [C47_compile_ok_iff]
  refine ⟨⟨by decide, ?_⟩, ⟨by decide, ?_⟩, ⟨by decide, ?_⟩⟩
  · intro x y h; simp [letmeindAllow] at h; obtain ⟨rfl, rfl⟩ := h; decide
  · intro x y h; simp [letmeinAllow] at h; obtain ⟨rfl, rfl⟩ := h; decide
  · intro x y h; simp [letmeinfwdAllow] at h
example : NoMix letmeindAllow ∧ NoMix letmeinAllow ∧ NoMix letmeinfwdAllow := by
  refine ⟨⟨?_, ?_⟩, ⟨?_, ?_⟩, ⟨?_, ?_⟩⟩ <;> simp [letmeindAllow, letmeinAllow, letmeinfwdAllow]
example : (SecFilter.compile ⟨true, true⟩ [.SetSockOpt (some (-1, 0))] .Kill) = .panic ∧ SecFilter.compile ⟨true, true⟩ [] .Log = .panic := by
  decide +kernel

/-! ## C62: the configured mode is in force -/

/-- **C62** (partial: on platforms with support). If a program gets past the installation with a mode other than off, every call outside its list
is killed or logged, as configured; the option overrides the file. With mode off there is no filter. -/
theorem C62_mode_in_force_partial {allow : List Allow} {p : SecPlatform} {opt : Option Seccomp} {conf : Config} {ok : Bool} {r : Option SecFilter}
    (h : installFor allow (some p) opt conf ok = .ok r) :
    match opt.getD conf.seccomp with
    | .Off => r = none
    | .Kill => ∃ f, r = some f ∧ SecFilter.compile p allow .Kill = .ok f ∧ ∀ s args, f.permits s args = false → f.effect s args = .killed
    | .Log => ∃ f, r = some f ∧ SecFilter.compile p allow .Log = .ok f ∧ ∀ s args, f.permits s args = false → f.effect s args = .logged := by
  have key : ∀ d, installSeccomp.install allow (some p) ok d = .ok r →
      ∃ f, r = some f ∧ SecFilter.compile p allow d = .ok f ∧ f.deny = d := by
    intro d h
    simp only [installSeccomp.install] at h
    rw [R.bind_eq_ok] at h
    obtain ⟨f, hf, h⟩ := h
    cases ok with
    | false => simp [rensure] at h
    | true =>
      simp only [rensure, if_true, R.bind_ok, R.ok.injEq] at h
      obtain ⟨_, _, _, hfe⟩ := compile_eq.1 hf
      exact ⟨f, h.symm, hf, by rw [hfe]⟩
  unfold installFor installSeccomp at h
  cases hm : opt.getD conf.seccomp with
  | Off => rw [hm] at h; injection h with h; exact h.symm
  | Kill =>
    rw [hm] at h
    obtain ⟨f, h1, h2, h3⟩ := key _ h
    exact ⟨f, h1, h2, fun s args hp => by simp [SecFilter.effect, hp, h3]⟩
  | Log =>
    rw [hm] at h
    obtain ⟨f, h1, h2, h3⟩ := key _ h
    exact ⟨f, h1, h2, fun s args hp => by simp [SecFilter.effect, hp, h3]⟩

/-- **C62**. A filter that cannot be installed stops the program. -/
theorem C62_no_silent_failure (allow : List Allow) (p : SecPlatform) (opt : Option Seccomp) (conf : Config) (hm : opt.getD conf.seccomp ≠ .Off) (r : Option SecFilter) :
    installFor allow (some p) opt conf false ≠ .ok r := by
  intro h
  unfold installFor installSeccomp at h
  cases hx : opt.getD conf.seccomp with
  | Off => exact hm hx
  | Kill | Log =>
    rw [hx] at h
    simp only [installSeccomp.install] at h
    rw [R.bind_eq_ok] at h
    obtain ⟨f, _, h⟩ := h
    simp [rensure] at h

/-- **C62 is false**: on a platform without support the program runs without a filter although one is configured; there is only a warning. -/
theorem C62_negation : ∀ allow opt conf ok, installFor allow none opt conf ok = .ok none := by
  intro allow opt conf ok
  unfold installFor installSeccomp
  cases opt.getD conf.seccomp <;> rfl

/-- letmeind with mode kill: `execve` kills, `socket(AF_NETLINK)` kills, `socket(AF_INET6)` does not. -/
example : (match installSeccomp letmeindAllow (some ⟨true, true⟩) .Kill true with
    | .ok (some f) => [f.effect (.named .execve) (fun _ => 0), f.effect (.named .socket) (fun _ => 16), f.effect (.named .socket) (fun _ => 10),
        f.effect (.named .read) (fun _ => 77)]
    | _ => []) = [.killed, .killed, .allowed, .allowed] := by decide +kernel

end Letmein.Props
