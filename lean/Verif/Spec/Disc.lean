import Verif.Spec.Life

/-!
# How much a judged program can store on disc

Written from open(2), write(2), setrlimit(2) (RLIMIT_FSIZE, RLIMIT_CORE), core(5), fork(2) and seccomp(2); nothing of the code is used.  A file is made
longer only through a description open for writing, and not beyond the limit.  A call that is not in `storesNothing` may give the process any file open
for writing, or store up to the limit in it.  Killed by certain signals, a process leaves a core file of at most `core` bytes.
-/

set_option autoImplicit false

namespace Judger.Spec

/-- Calls that neither open a file for writing nor store anything: read, close, fstat, lseek, mmap, mprotect, munmap, brk, pread64, readv, access, dup, dup2,
execve, readlink, arch_prctl, futex, set_tid_address, clock_gettime, exit_group, newfstatat, faccessat, set_robust_list, dup3, prlimit64, getrandom,
rseq; and write and writev, which store in what is open. -/
def storesNothing : List Nat :=
  [0, 1, 3, 5, 8, 9, 10, 11, 12, 17, 19, 20, 21, 32, 33, 59, 89, 158, 202, 218, 228, 231, 262, 269, 273, 292, 302, 318, 334]

/-- The call may open a file for writing: open and openat whose access mode (the low two bits of the flags) is not O_RDONLY, and whatever is not
known to store nothing. -/
def MayOpen (r : Req) : Prop :=
  r.native = false ∨ (r.nr = 2 ∧ (r.args 1).toNat % 4 ≠ 0) ∨ (r.nr = 257 ∧ (r.args 2).toNat % 4 ≠ 0) ∨ (r.nr ≠ 2 ∧ r.nr ≠ 257 ∧ r.nr ∉ storesNothing)

/-- A process, and the files it has open for writing. -/
structure Hand where
  proc : Proc
  files : List CStr

/-- The judged program and its descendants, the sizes of all files, and the size of the core files. -/
structure Desk where
  hands : List Hand
  size : CStr → Nat
  cores : Nat

/-- Everything the judged program and its descendants can do. -/
inductive Stores (core : Nat) : Desk → Desk → Prop
  | start (k : Desk) : Stores core k k
  | act {k l : Desk} (h : Stores core k l) (i : Nat) (x : Hand) (p' : Proc) (hx : l.hands[i]? = some x) (ha : Act x.proc p') :
      Stores core k { l with hands := l.hands.set i { x with proc := p' } }
  /-- setrlimit, prlimit, as in `Life` -/
  | limit {k l : Desk} (h : Stores core k l) (i : Nat) (caller x : Hand) (r : Res) (v : RLimit) (hc : caller ∈ l.hands)
      (hx : l.hands[i]? = some x) (hv : v.cur ≤ v.max) (ha : caller.proc.privileged = true ∨ v.max ≤ (x.proc.limits r).max) :
      Stores core k { l with hands := l.hands.set i { x with proc := { x.proc with limits := fun r' => if r' = r then v else x.proc.limits r' } } }
  | grows {k l : Desk} (h : Stores core k l) (x : Hand) (f : CStr) (n : Nat) (hx : x ∈ l.hands) (hf : f ∈ x.files)
      (hn : (n : Int) ≤ (x.proc.limits .fsize).cur) : Stores core k { l with size := fun g => if g = f then max n (l.size g) else l.size g }
  /-- by truncating it, or opening it with O_TRUNC -/
  | shrinks {k l : Desk} (h : Stores core k l) (f : CStr) (n : Nat) :
      Stores core k { l with size := fun g => if g = f then min n (l.size g) else l.size g }
  | opens {k l : Desk} (h : Stores core k l) (i : Nat) (x : Hand) (f : CStr) (r : Req) (hx : l.hands[i]? = some x) (hr : MayOpen r)
      (ha : evalAll x.proc.filters r = .allow) : Stores core k { l with hands := l.hands.set i { x with files := f :: x.files } }
  | forks {k l : Desk} (h : Stores core k l) (x : Hand) (r : Req) (hx : x ∈ l.hands) (hn : r.nr = 56 ∨ r.nr = 57 ∨ r.nr = 58 ∨ r.nr = 435)
      (ha : evalAll x.proc.filters r = .allow) : Stores core k { l with hands := l.hands ++ [x] }
  | exits {k l : Desk} (h : Stores core k l) (i : Nat) : Stores core k { l with hands := l.hands.eraseIdx i }
  /-- killed by a signal that leaves a core file -/
  | dumps {k l : Desk} (h : Stores core k l) (i n : Nat) (hi : i < l.hands.length) (hn : n ≤ core) :
      Stores core k { l with hands := l.hands.eraseIdx i, cores := l.cores + n }

/-- By how much these files have grown together. -/
def grownBy (before after : CStr → Nat) (fs : List CStr) : Nat := (fs.map fun f => after f - before f).sum

end Judger.Spec
