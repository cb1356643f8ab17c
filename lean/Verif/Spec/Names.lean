import Verif.Model.Seccomp

/-!
# What the names of files lead to

Written from open(2), symlink(2), path_resolution(7), fork(2) and seccomp(2); nothing of the code is used.  A name (a whole path) is that of a file or of a
symbolic link, which leads on to another name.  A program can change the names in the directories its user may write to.  A call that is not in `leavesNames`
may do anything to these.
-/

set_option autoImplicit false

namespace Judger.Spec

/-- What stands under a name; files are numbered. -/
inductive Entry where
  | file (i : Nat)
  | link (target : CStr)
deriving Repr, DecidableEq

/-- All names. -/
abbrev Names := CStr → Option Entry

/-- Opening this name opens this file. -/
inductive Denotes (d : Names) : CStr → Nat → Prop
  | file (n : CStr) (i : Nat) (h : d n = some (.file i)) : Denotes d n i
  | link (n t : CStr) (i : Nat) (h : d n = some (.link t)) (ht : Denotes d t i) : Denotes d n i

/-- One more, or another, name. -/
def Names.put (d : Names) (n : CStr) (e : Option Entry) : Names := fun m => if m = n then e else d m

/-- Calls that change no name: read, write, close, fstat, lseek, mmap, mprotect, munmap, brk, pread64, readv, writev, access, dup, dup2, execve, readlink,
arch_prctl, futex, set_tid_address, clock_gettime, exit_group, newfstatat, faccessat, set_robust_list, dup3, prlimit64, getrandom, rseq. -/
def leavesNames : List Nat :=
  [0, 1, 3, 5, 8, 9, 10, 11, 12, 17, 19, 20, 21, 32, 33, 59, 89, 158, 202, 218, 228, 231, 262, 269, 273, 292, 302, 318, 334]

/-- The names, how many files there have been, and the filters of each process of the program. -/
structure Tree where
  names : Names
  files : Nat
  procs : List (List Filter)

/-- Everything the program and its descendants can do to names; `may`: the directory of that name is writable for the program's user. -/
inductive Renames (may : CStr → Prop) : Tree → Tree → Prop
  | start (t : Tree) : Renames may t t
  /-- open, openat with O_CREAT: a new file, where there is no such name -/
  | creates {t u : Tree} (h : Renames may t u) (fs : List Filter) (hf : fs ∈ u.procs) (r : Req) (hn : r.nr = 2 ∨ r.nr = 257) (ha : evalAll fs r = .allow)
      (n : CStr) (hm : may n) (hd : u.names n = none) : Renames may t { u with names := u.names.put n (some (.file u.files)), files := u.files + 1 }
  /-- symlink, symlinkat: where there is no such name -/
  | links {t u : Tree} (h : Renames may t u) (fs : List Filter) (hf : fs ∈ u.procs) (r : Req) (hn : r.native = false ∨ r.nr = 88 ∨ r.nr = 266)
      (ha : evalAll fs r = .allow) (n target : CStr) (hm : may n) (hd : u.names n = none) :
      Renames may t { u with names := u.names.put n (some (.link target)) }
  /-- another call: rename, link, unlink, ... -/
  | other {t u : Tree} (h : Renames may t u) (fs : List Filter) (hf : fs ∈ u.procs) (r : Req) (hn : r.native = false ∨ r.nr ∉ [2, 257, 88, 266] ++ leavesNames)
      (ha : evalAll fs r = .allow) (n : CStr) (e : Option Entry) (hm : may n) : Renames may t { u with names := u.names.put n e }
  | installs {t u : Tree} (h : Renames may t u) (a b : List (List Filter)) (fs : List Filter) (f : Filter) (hf : u.procs = a ++ fs :: b) :
      Renames may t { u with procs := a ++ (f :: fs) :: b }
  | forks {t u : Tree} (h : Renames may t u) (fs : List Filter) (hf : fs ∈ u.procs) : Renames may t { u with procs := u.procs ++ [fs] }
  | ends {t u : Tree} (h : Renames may t u) (a b : List (List Filter)) (fs : List Filter) (hf : u.procs = a ++ fs :: b) :
      Renames may t { u with procs := a ++ b }

end Judger.Spec
