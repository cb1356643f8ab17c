import Verif.Model.Config

/-!
# libseccomp filters and the five rule sets of `rules/*.c`

libseccomp and the kernel's seccomp are not part of the repository; what is assumed of them is written here as definitions:

* a filter is a default action plus rules; a request is answered by the first rule that matches its number and all its argument
  comparisons, otherwise by the default action (libseccomp's generated BPF for the native architecture);
* comparisons are on the full 64-bit argument registers;
* a request through any other ABI gets the bad-architecture action, which is KILL by default (also for x32);
* `seccomp_rule_add` refuses a rule whose action equals the default action (`-EACCES`/`-EPERM`);
* with several filters installed the most restrictive answer wins (seccomp(2)).
-/

set_option autoImplicit false

namespace Judger

/-! System call numbers, x86-64 (`asm/unistd_64.h`); `SCMP_SYS(x)` is `__NR_x`. -/
def NR_read : Nat := 0
def NR_write : Nat := 1
def NR_open : Nat := 2
def NR_close : Nat := 3
def NR_fstat : Nat := 5
def NR_lseek : Nat := 8
def NR_mmap : Nat := 9
def NR_mprotect : Nat := 10
def NR_munmap : Nat := 11
def NR_brk : Nat := 12
def NR_rt_sigprocmask : Nat := 14
def NR_pread64 : Nat := 17
def NR_readv : Nat := 19
def NR_writev : Nat := 20
def NR_access : Nat := 21
def NR_dup : Nat := 32
def NR_dup2 : Nat := 33
def NR_getpid : Nat := 39
def NR_socket : Nat := 41
def NR_clone : Nat := 56
def NR_fork : Nat := 57
def NR_vfork : Nat := 58
def NR_execve : Nat := 59
def NR_kill : Nat := 62
def NR_flock : Nat := 73
def NR_readlink : Nat := 89
def NR_setuid : Nat := 105
def NR_setgid : Nat := 106
def NR_setgroups : Nat := 116
def NR_prctl : Nat := 157
def NR_arch_prctl : Nat := 158
def NR_gettid : Nat := 186
def NR_futex : Nat := 202
def NR_set_tid_address : Nat := 218
def NR_clock_gettime : Nat := 228
def NR_exit_group : Nat := 231
def NR_tgkill : Nat := 234
def NR_openat : Nat := 257
def NR_newfstatat : Nat := 262
def NR_faccessat : Nat := 269
def NR_set_robust_list : Nat := 273
def NR_dup3 : Nat := 292
def NR_prlimit64 : Nat := 302
def NR_seccomp : Nat := 317
def NR_getrandom : Nat := 318
def NR_execveat : Nat := 322
def NR_rseq : Nat := 334

/-- `EACCES` of `<errno.h>`. -/
def EACCES : Nat := 13

/-- `O_RDONLY`, `O_WRONLY`, `O_RDWR`, `O_CREAT`, `O_TRUNC` of `<fcntl.h>` on x86-64. -/
def O_RDONLY : BitVec 64 := 0
@[inherit_doc O_RDONLY] def O_WRONLY : BitVec 64 := 1
@[inherit_doc O_RDONLY] def O_RDWR : BitVec 64 := 2
@[inherit_doc O_RDONLY] def O_CREAT : BitVec 64 := 0x40
@[inherit_doc O_RDONLY] def O_TRUNC : BitVec 64 := 0x200
@[inherit_doc O_RDONLY] def O_APPEND : BitVec 64 := 0x400

/-- `SCMP_ACT_KILL` (kills the calling thread with SIGSYS), `SCMP_ACT_ERRNO(n)`, `SCMP_ACT_ALLOW`. -/
inductive Action where
  | kill
  | errno (n : Nat)
  | allow
deriving Repr, DecidableEq

/-- What the kernel hands a filter: the ABI, the call number, the six argument registers. -/
structure Req where
  native : Bool
  nr : Nat
  args : Fin 6 → BitVec 64

/-- A native request with the given leading arguments, the rest 0. -/
def Req.mk' (nr : Nat) (args : List (BitVec 64)) : Req :=
  ⟨true, nr, fun i => args.getD i.val 0⟩

/-- `struct scmp_arg_cmp` with the three operators the code uses. -/
inductive ArgCmp where
  | eq (arg : Fin 6) (datum : BitVec 64)
  | ne (arg : Fin 6) (datum : BitVec 64)
  | maskedEq (arg : Fin 6) (mask datum : BitVec 64)
deriving Repr, DecidableEq

/-- Does a comparison hold of a request. -/
def ArgCmp.holds (c : ArgCmp) (r : Req) : Bool :=
  match c with
  | .eq i d => r.args i == d
  | .ne i d => r.args i != d
  | .maskedEq i m d => (r.args i &&& m) == d

/-- One `seccomp_rule_add(ctx, action, nr, n, cmps...)`. -/
structure Rule where
  action : Action
  nr : Nat
  cmps : List ArgCmp
deriving Repr, DecidableEq

def Rule.applies (u : Rule) (r : Req) : Bool := u.nr == r.nr && u.cmps.all (·.holds r)

/-- A `scmp_filter_ctx`. -/
structure Filter where
  dflt : Action
  rules : List Rule
deriving Repr, DecidableEq

/-- The answer of one loaded filter. -/
def Filter.eval (f : Filter) (r : Req) : Action :=
  if r.native then
    match f.rules.find? (·.applies r) with
    | some u => u.action
    | none => f.dflt
  else .kill

/-- The more restrictive of two answers (seccomp(2): KILL, then ERRNO, then ALLOW). -/
def Action.min : Action → Action → Action
  | .kill, _ => .kill
  | _, .kill => .kill
  | .errno n, _ => .errno n
  | .allow, a => a

/-- The kernel's answer with a list of filters installed, newest first. -/
def evalAll : List Filter → Req → Action
  | [], _ => .allow
  | f :: fs, r => (f.eval r).min (evalAll fs r)

/-! ## The rule sets -/

/-- c_cpp.c:12-38 `syscalls_whitelist`. -/
def cCppWhitelist : List Nat :=
  [NR_access, NR_arch_prctl, NR_brk, NR_clock_gettime, NR_close, NR_exit_group, NR_faccessat, NR_fstat, NR_futex,
   NR_getrandom, NR_lseek, NR_mmap, NR_mprotect, NR_munmap, NR_newfstatat, NR_pread64, NR_prlimit64, NR_read, NR_readlink,
   NR_readv, NR_rseq, NR_set_robust_list, NR_set_tid_address, NR_write, NR_writev]

/-- c_cpp.c:60-84, the rules that depend on `allow_write_file`. -/
def cCppFileRules (allowWrite : Bool) : List Rule :=
  if allowWrite then
    [⟨.allow, NR_open, []⟩, ⟨.allow, NR_openat, []⟩, ⟨.allow, NR_dup, []⟩, ⟨.allow, NR_dup2, []⟩, ⟨.allow, NR_dup3, []⟩]
  else
    [⟨.allow, NR_open, [.maskedEq 1 (O_WRONLY ||| O_RDWR) 0]⟩,
     ⟨.allow, NR_openat, [.maskedEq 2 (O_WRONLY ||| O_RDWR) 0]⟩]

/-- c_cpp.c:49-84: every `seccomp_rule_add` of `_c_cpp_seccomp_rules`, in order.  `exe` is the pointer
`(scmp_datum_t) _config->exe_path`. -/
def cCppRules (exe : BitVec 64) (allowWrite : Bool) : List Rule :=
  cCppWhitelist.map (fun n => ⟨.allow, n, []⟩) ++ [⟨.allow, NR_execve, [.eq 0 exe]⟩] ++ cCppFileRules allowWrite

/-- general.c:12-18; `hasExecveat` is `#ifdef __NR_execveat`. -/
def generalBlacklist (hasExecveat : Bool) : List Nat :=
  [NR_clone, NR_fork, NR_vfork, NR_kill] ++ (if hasExecveat then [NR_execveat] else [])

/-- general.c:39-52 and golang.c:31-44: the four rules against opening for writing. -/
def noWriteOpenRules : List Rule :=
  [⟨.kill, NR_open, [.maskedEq 1 O_WRONLY O_WRONLY]⟩, ⟨.kill, NR_open, [.maskedEq 1 O_RDWR O_RDWR]⟩,
   ⟨.kill, NR_openat, [.maskedEq 2 O_WRONLY O_WRONLY]⟩, ⟨.kill, NR_openat, [.maskedEq 2 O_RDWR O_RDWR]⟩]

/-- general.c:26-52, in order. -/
def generalRules (exe : BitVec 64) (hasExecveat : Bool) : List Rule :=
  (generalBlacklist hasExecveat).map (fun n => ⟨.kill, n, []⟩) ++ [⟨.errno EACCES, NR_socket, []⟩] ++
  [⟨.kill, NR_execve, [.ne 0 exe]⟩] ++ noWriteOpenRules

/-- golang.c:12-18 and node.c:12-18 (the same list). -/
def golangBlacklist (hasExecveat : Bool) : List Nat :=
  [NR_socket, NR_fork, NR_vfork, NR_kill] ++ (if hasExecveat then [NR_execveat] else [])

/-- golang.c:26-44, in order. -/
def golangRules (hasExecveat : Bool) : List Rule :=
  (golangBlacklist hasExecveat).map (fun n => ⟨.kill, n, []⟩) ++ noWriteOpenRules

/-- node.c:26-30, in order. -/
def nodeRules (hasExecveat : Bool) : List Rule :=
  (golangBlacklist hasExecveat).map (fun n => ⟨.kill, n, []⟩)

/-- The filters that the five functions load when none of their calls fails
(`seccomp_init` argument: c_cpp.c:44, general.c:22, golang.c:22, node.c:22). -/
def cCppFilter (exe : BitVec 64) : Filter := ⟨.kill, cCppRules exe false⟩
@[inherit_doc cCppFilter] def cCppFileIoFilter (exe : BitVec 64) : Filter := ⟨.kill, cCppRules exe true⟩
@[inherit_doc cCppFilter] def generalFilter (exe : BitVec 64) (x : Bool) : Filter := ⟨.allow, generalRules exe x⟩
@[inherit_doc cCppFilter] def golangFilter (x : Bool) : Filter := ⟨.allow, golangRules x⟩
@[inherit_doc cCppFilter] def nodeFilter (x : Bool) : Filter := ⟨.allow, nodeRules x⟩

end Judger
