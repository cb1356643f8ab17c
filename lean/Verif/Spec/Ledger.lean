import Verif.Model.Seccomp

/-!
# What a program can do to the judger's log

Written from open(2), write(2), fcntl(2), ftruncate(2), mmap(2), flock(2), fork(2) and seccomp(2); nothing of the code is used.  A program can get at the file
through an open description that it inherits, or by name if its user may write the file.  Through a description opened for
appending only (O_WRONLY | O_APPEND), `write` and `writev` add at the end, wherever others have written meanwhile; the file cannot be mapped.  A
call that is not in `tame` may do anything to the file.
-/

set_option autoImplicit false

namespace Judger.Spec

/-- Calls that do nothing to a file open for appending only: read, close, fstat, lseek, mmap, mprotect, munmap, brk, pread64, readv, access, dup, dup2,
execve, readlink, arch_prctl, futex, set_tid_address, clock_gettime, exit_group, newfstatat, faccessat, set_robust_list, dup3, prlimit64, getrandom,
rseq. -/
def tame : List Nat :=
  [0, 3, 5, 8, 9, 10, 11, 12, 17, 19, 21, 32, 33, 59, 89, 158, 202, 218, 228, 231, 262, 269, 273, 292, 302, 318, 334]

/-- The log and those who work on it. -/
structure Ledger where
  text : List Char
  /-- what judgers wrote, in order, after what was there before -/
  told : List Char
  /-- the filters of each process of the program -/
  procs : List (List Filter)

/-- Everything that happens to the log.  `held`: the program has inherited a description of it, open for appending only; `writable`: the program's
user may write the file or the directory it is in. -/
inductive Writes (held writable : Prop) : Ledger → Ledger → Prop
  | start (l : Ledger) : Writes held writable l l
  /-- a judger writes an entry -/
  | tells {l m : Ledger} (h : Writes held writable l m) (s : List Char) : Writes held writable l { m with text := m.text ++ s, told := m.told ++ s }
  /-- write, writev -/
  | adds {l m : Ledger} (h : Writes held writable l m) (hl : held) (fs : List Filter) (hf : fs ∈ m.procs) (r : Req)
      (hn : r.native = false ∨ r.nr = 1 ∨ r.nr = 20) (ha : evalAll fs r = .allow) (s : List Char) : Writes held writable l { m with text := m.text ++ s }
  /-- ftruncate -/
  | cuts {l m : Ledger} (h : Writes held writable l m) (hl : held) (fs : List Filter) (hf : fs ∈ m.procs) (r : Req)
      (hn : r.native = false ∨ r.nr = 77) (ha : evalAll fs r = .allow) (n : Nat) : Writes held writable l { m with text := m.text.take n }
  /-- another call on the description -/
  | other {l m : Ledger} (h : Writes held writable l m) (hl : held) (fs : List Filter) (hf : fs ∈ m.procs) (r : Req)
      (hn : r.native = false ∨ r.nr ∉ [1, 20, 77, 2, 257] ++ tame) (ha : evalAll fs r = .allow) (s : List Char) : Writes held writable l { m with text := s }
  /-- whatever one who may write the file can do -/
  | named {l m : Ledger} (h : Writes held writable l m) (hw : writable) (s : List Char) : Writes held writable l { m with text := s }
  | installs {l m : Ledger} (h : Writes held writable l m) (a b : List (List Filter)) (fs : List Filter) (f : Filter) (hf : m.procs = a ++ fs :: b) :
      Writes held writable l { m with procs := a ++ (f :: fs) :: b }
  | forks {l m : Ledger} (h : Writes held writable l m) (fs : List Filter) (hf : fs ∈ m.procs) : Writes held writable l { m with procs := m.procs ++ [fs] }
  | ends {l m : Ledger} (h : Writes held writable l m) (a b : List (List Filter)) (fs : List Filter) (hf : m.procs = a ++ fs :: b) :
      Writes held writable l { m with procs := a ++ b }

end Judger.Spec
