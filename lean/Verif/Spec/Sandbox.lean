import Verif.Model.Seccomp

/-!
# What a program can do under a filter

A small model of the Linux system-call interface, written from the manual pages, used to state what the rule sets achieve.
It does not use anything of `child.c`.

For the calls in `documented` the possible effects are listed; a call not in that list may do anything to descriptors, files
and other processes, except what only listed calls can do: create a task (clone, fork, vfork, clone3), replace the program
(execve, execveat), install a filter (seccomp, prctl).  Nothing ever removes a filter (seccomp(2)).
-/

set_option autoImplicit false

namespace Judger.Spec

/-- A descriptor: the open file description it refers to and whether one can write through it. -/
structure Desc where
  file : Nat
  writable : Bool
deriving Repr, DecidableEq

/-- Things worth recording. -/
inductive Event where
  /-- a file was created -/
  | created (path : CStr)
  /-- a file was emptied -/
  | truncated (path : CStr)
  /-- a signal was sent to process or thread `pid` -/
  | signalled (pid : Nat)
  /-- the resource limits of process `pid` were changed -/
  | limited (pid : Nat)
  /-- the program was replaced by the file `path`; `ptr` is the address the path was read from -/
  | execed (ptr : BitVec 64) (path : CStr)
deriving Repr, DecidableEq

/-- A program under judgement and its surroundings. -/
structure World where
  /-- the C string at each address -/
  mem : BitVec 64 → CStr
  fds : Nat → Option Desc
  /-- number of processes and threads started from the judged program -/
  tasks : Nat
  filters : List Filter
  /-- newest first -/
  events : List Event

/-- The access mode in an `int flags` argument: 0 read-only, 1 write-only, 2 read-write, 3 neither (Linux-specific). -/
def accessMode (flags : BitVec 64) : Nat := flags.toNat % 4

/-- `O_CREAT` (0o100) is set. -/
def wantsCreate (flags : BitVec 64) : Bool := flags.toNat / 64 % 2 == 1
/-- `O_TRUNC` (0o1000) is set. -/
def wantsTruncate (flags : BitVec 64) : Bool := flags.toNat / 512 % 2 == 1

/-- What opening a path with these flags may leave behind. -/
def openEvents (flags : BitVec 64) (path : CStr) : List Event :=
  (if wantsTruncate flags then [.truncated path] else []) ++ (if wantsCreate flags then [.created path] else [])

def World.withFd (w : World) (fd : Nat) (d : Desc) : World :=
  { w with fds := fun n => if n = fd then some d else w.fds n }

/-- System calls, by x86-64 number, whose effects are described below: read, write, open, close, fstat, lseek, mmap,
mprotect, munmap, brk, pread64, readv, writev, access, dup, dup2, clone, fork, vfork, execve, kill, fcntl, creat,
readlink, rt_sigqueueinfo, prctl, arch_prctl, tkill, futex, set_tid_address, clock_gettime, exit_group, tgkill, openat,
newfstatat, faccessat, set_robust_list, dup3, prlimit64, seccomp, getrandom, execveat, rseq, clone3, openat2. -/
def documented : List Nat :=
  [0, 1, 2, 3, 5, 8, 9, 10, 11, 12, 17, 19, 20, 21, 32, 33, 56, 57, 58, 59, 62, 72, 85, 89, 129, 157, 158, 200, 202, 218,
   228, 231, 234, 257, 262, 269, 273, 292, 302, 317, 318, 322, 334, 435, 437]

/-- One system call that the filters let through. -/
inductive Kernel : Req → World → World → Prop
  /-- any call may fail, or only fill memory of the caller -/
  | plain (r : Req) (w : World) (m : BitVec 64 → CStr) : Kernel r w { w with mem := m }
  /-- open(path, flags, mode): lowest free descriptor; here any free one -/
  | opens (r : Req) (w : World) (fd file : Nat) (hn : r.nr = 2) (hf : w.fds fd = none) :
      Kernel r w { w.withFd fd ⟨file, accessMode (r.args 1) != 0⟩ with
        events := openEvents (r.args 1) (w.mem (r.args 0)) ++ w.events }
  /-- openat(dirfd, path, flags, mode) -/
  | opensAt (r : Req) (w : World) (fd file : Nat) (hn : r.nr = 257) (hf : w.fds fd = none) :
      Kernel r w { w.withFd fd ⟨file, accessMode (r.args 2) != 0⟩ with
        events := openEvents (r.args 2) (w.mem (r.args 1)) ++ w.events }
  /-- creat(path, mode) is open(path, O_CREAT|O_WRONLY|O_TRUNC, mode) -/
  | creats (r : Req) (w : World) (fd file : Nat) (hn : r.nr = 85) (hf : w.fds fd = none) :
      Kernel r w { w.withFd fd ⟨file, true⟩ with
        events := .truncated (w.mem (r.args 0)) :: .created (w.mem (r.args 0)) :: w.events }
  /-- openat2(dirfd, path, how, size): the flags are in memory, chosen by the program -/
  | opensAt2 (r : Req) (w : World) (fd file : Nat) (flags : BitVec 64) (hn : r.nr = 437) (hf : w.fds fd = none) :
      Kernel r w { w.withFd fd ⟨file, accessMode flags != 0⟩ with
        events := openEvents flags (w.mem (r.args 1)) ++ w.events }
  /-- dup, dup2, dup3, fcntl(F_DUPFD): a second descriptor for the same open file -/
  | dups (r : Req) (w : World) (fd fd' : Nat) (d : Desc) (hn : r.nr = 32 ∨ r.nr = 33 ∨ r.nr = 292 ∨ r.nr = 72)
      (hd : w.fds fd = some d) : Kernel r w (w.withFd fd' d)
  | closes (r : Req) (w : World) (fd : Nat) (hn : r.nr = 3) :
      Kernel r w { w with fds := fun n => if n = fd then none else w.fds n }
  /-- clone, fork, vfork, clone3 -/
  | forks (r : Req) (w : World) (hn : r.nr = 56 ∨ r.nr = 57 ∨ r.nr = 58 ∨ r.nr = 435) :
      Kernel r w { w with tasks := w.tasks + 1 }
  /-- execve(path, argv, envp); the new program has its own memory; close-on-exec descriptors are closed -/
  | execs (r : Req) (w : World) (m : BitVec 64 → CStr) (cloexec : Nat → Bool) (hn : r.nr = 59) :
      Kernel r w { w with mem := m, fds := fun n => if cloexec n then none else w.fds n,
                          events := .execed (r.args 0) (w.mem (r.args 0)) :: w.events }
  /-- execveat(dirfd, path, argv, envp, flags) -/
  | execsAt (r : Req) (w : World) (m : BitVec 64 → CStr) (cloexec : Nat → Bool) (hn : r.nr = 322) :
      Kernel r w { w with mem := m, fds := fun n => if cloexec n then none else w.fds n,
                          events := .execed (r.args 1) (w.mem (r.args 1)) :: w.events }
  /-- kill(pid, sig), tkill(tid, sig), rt_sigqueueinfo(pid, sig, info) -/
  | signals (r : Req) (w : World) (hn : r.nr = 62 ∨ r.nr = 200 ∨ r.nr = 129) :
      Kernel r w { w with events := .signalled (r.args 0).toNat :: w.events }
  /-- tgkill(tgid, tid, sig) -/
  | signalsThread (r : Req) (w : World) (hn : r.nr = 234) :
      Kernel r w { w with events := .signalled (r.args 1).toNat :: w.events }
  /-- prlimit64(pid, resource, new, old) for another process of the same user -/
  | limits (r : Req) (w : World) (hn : r.nr = 302) (hp : r.args 0 ≠ 0) :
      Kernel r w { w with events := .limited (r.args 0).toNat :: w.events }
  /-- seccomp(SECCOMP_SET_MODE_FILTER), prctl(PR_SET_SECCOMP) -/
  | installs (r : Req) (w : World) (f : Filter) (hn : r.nr = 317 ∨ r.nr = 157) :
      Kernel r w { w with filters := f :: w.filters }
  /-- a call not listed above -/
  | other (r : Req) (w : World) (m : BitVec 64 → CStr) (fds : Nat → Option Desc) (evs : List Event)
      (hn : r.nr ∉ documented) (he : ∀ ptr path, Event.execed ptr path ∉ evs) :
      Kernel r w { w with mem := m, fds := fds, events := evs ++ w.events }

/-- Everything a program can do: change its own memory, and make system calls that the filters allow. -/
inductive Run : World → World → Prop
  | start (w : World) : Run w w
  | compute {w w' : World} (h : Run w w') (m : BitVec 64 → CStr) : Run w { w' with mem := m }
  | call {w w' w'' : World} (h : Run w w') (r : Req) (ha : evalAll w'.filters r = .allow) (hk : Kernel r w' w'') : Run w w''

/-- A filter of one of the two C/C++ rule sets is in force. -/
def UnderCCpp (exe : BitVec 64) (w : World) : Prop :=
  cCppFilter exe ∈ w.filters ∨ cCppFileIoFilter exe ∈ w.filters

/-- The flags argument asks for reading only. -/
def readOnly (flags : BitVec 64) : Bool := accessMode flags == 0

/-- What general.c promises for each native request. -/
def generalAnswer (exe : BitVec 64) (hasExecveat : Bool) (r : Req) : Action :=
  if r.nr = 56 ∨ r.nr = 57 ∨ r.nr = 58 ∨ r.nr = 62 ∨ (hasExecveat = true ∧ r.nr = 322) then .kill
  else if r.nr = 41 then .errno 13
  else if r.nr = 59 then (if r.args 0 = exe then .allow else .kill)
  else if r.nr = 2 then (if readOnly (r.args 1) then .allow else .kill)
  else if r.nr = 257 then (if readOnly (r.args 2) then .allow else .kill)
  else .allow

/-- What golang.c promises. -/
def golangAnswer (hasExecveat : Bool) (r : Req) : Action :=
  if r.nr = 41 ∨ r.nr = 57 ∨ r.nr = 58 ∨ r.nr = 62 ∨ (hasExecveat = true ∧ r.nr = 322) then .kill
  else if r.nr = 2 then (if readOnly (r.args 1) then .allow else .kill)
  else if r.nr = 257 then (if readOnly (r.args 2) then .allow else .kill)
  else .allow

/-- What node.c promises. -/
def nodeAnswer (hasExecveat : Bool) (r : Req) : Action :=
  if r.nr = 41 ∨ r.nr = 57 ∨ r.nr = 58 ∨ r.nr = 62 ∨ (hasExecveat = true ∧ r.nr = 322) then .kill
  else .allow

/-- What c_cpp.c promises: a fixed list of calls, `execve` of the judger's own path pointer, read-only `open`/`openat`. -/
def cCppAnswer (exe : BitVec 64) (r : Req) : Action :=
  if r.nr ∈ [0, 1, 3, 5, 8, 9, 10, 11, 12, 17, 19, 20, 21, 89, 158, 202, 218, 228, 231, 262, 269, 273, 302, 318, 334] then .allow
  else if r.nr = 59 ∧ r.args 0 = exe then .allow
  else if r.nr = 2 ∧ readOnly (r.args 1) then .allow
  else if r.nr = 257 ∧ readOnly (r.args 2) then .allow
  else .kill

/-- What c_cpp_file_io.c promises in addition: any `open`, `openat`, `dup`, `dup2`, `dup3`. -/
def cCppFileIoAnswer (exe : BitVec 64) (r : Req) : Action :=
  if r.nr ∈ [2, 257, 32, 33, 292] then .allow else cCppAnswer exe r

end Judger.Spec
