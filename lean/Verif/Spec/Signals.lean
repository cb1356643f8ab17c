import Verif.Model.Kernel
import Verif.Spec.Verdict

/-!
# Signal settings: what becomes of a write at the file-size limit

Written from setrlimit(2), write(2), signal(7), sigaction(2) and execve(2); nothing of the code is used.
-/

set_option autoImplicit false

namespace Judger.Spec

/-- The judged program as the writer of its output file. -/
structure Writer where
  filters : List Filter
  /-- RLIMIT_FSIZE -/
  limit : RLimit
  root : Bool
  ignored : Nat → Bool
  handled : Nat → Bool
  blocked : Nat → Bool
  /-- the position in the output file -/
  pos : Nat
  /-- a write has been cut short at the limit -/
  short : Bool
  /-- a write has been refused at the limit -/
  refused : Bool
  ended : Option Termination

/-- The program that a process in state `q` has become by `execve`, at the beginning of its output file. -/
def Writer.start (q : Proc) : Writer where
  filters := q.filters
  limit := q.limits .fsize
  root := q.uid.e == 0
  ignored := q.ignored
  handled := fun _ => false
  blocked := q.blocked
  pos := 0
  short := false
  refused := false
  ended := none

/-- The calls described below, and calls that have nothing to do with the output file or signals: read, write, open, close, fstat, lseek,
mmap, mprotect, munmap, brk, rt_sigaction, rt_sigprocmask, pread64, readv, writev, access, dup, dup2, execve, exit, readlink, prctl,
arch_prctl, setrlimit, futex, set_tid_address, clock_gettime, exit_group, openat, newfstatat, faccessat, set_robust_list, dup3, prlimit64,
seccomp, getrandom, execveat, rseq. -/
def writerCalls : List Nat :=
  [0, 1, 2, 3, 5, 8, 9, 10, 11, 12, 13, 14, 17, 19, 20, 21, 32, 33, 59, 60, 89, 157, 158, 160, 202, 218, 228, 231, 257, 262, 269, 273, 292,
   302, 317, 318, 322, 334]

/-- SIGXFSZ is 25. -/
def Writer.diesOfXfsz (w : Writer) : Bool := !w.ignored 25 && !w.handled 25 && !w.blocked 25

/-- One call that the filters let through. -/
inductive WriterCall : Req → Writer → Writer → Prop
  /-- any call may fail, or do nothing that matters here -/
  | plain (r : Req) (w : Writer) : WriterCall r w w
  /-- write, writev: everything fits -/
  | whole (r : Req) (w : Writer) (n : Nat) (hn : r.nr = 1 ∨ r.nr = 20) (hl : ((w.pos + n : Nat) : Int) ≤ w.limit.cur) :
      WriterCall r w { w with pos := w.pos + n }
  /-- only the beginning fits: that much is written, and the call returns how much -/
  | short (r : Req) (w : Writer) (n m : Nat) (hn : r.nr = 1 ∨ r.nr = 20) (hl : w.limit.cur = ((w.pos + m : Nat) : Int)) (hm : 0 < m) (hmn : m < n) :
      WriterCall r w { w with pos := w.pos + m, short := true }
  /-- nothing fits: SIGXFSZ is raised; if it does not end the process the call fails with EFBIG -/
  | refused (r : Req) (w : Writer) (n : Nat) (core : Bool) (hn : r.nr = 1 ∨ r.nr = 20) (h0 : 0 < n) (hl : w.limit.cur ≤ (w.pos : Int)) :
      WriterCall r w { w with refused := true, ended := if w.diesOfXfsz then some (.signaled 25 core) else w.ended }
  | seeks (r : Req) (w : Writer) (pos : Nat) (hn : r.nr = 8) : WriterCall r w { w with pos := pos }
  /-- rt_sigaction -/
  | acts (r : Req) (w : Writer) (ignored handled : Nat → Bool) (hn : r.nr = 13) : WriterCall r w { w with ignored := ignored, handled := handled }
  /-- rt_sigprocmask -/
  | masks (r : Req) (w : Writer) (blocked : Nat → Bool) (hn : r.nr = 14) : WriterCall r w { w with blocked := blocked }
  /-- setrlimit, prlimit64: raising the hard limit needs privilege -/
  | limits (r : Req) (w : Writer) (v : RLimit) (hn : r.nr = 160 ∨ r.nr = 302) (hv : v.cur ≤ v.max) (hp : w.root = true ∨ v.max ≤ w.limit.max) :
      WriterCall r w { w with limit := v }
  /-- execve, execveat: handlers are gone, ignored and blocked signals stay so -/
  | execs (r : Req) (w : Writer) (hn : r.nr = 59 ∨ r.nr = 322) : WriterCall r w { w with handled := fun _ => false }
  /-- exit, exit_group -/
  | exits (r : Req) (w : Writer) (code : Nat) (hn : r.nr = 60 ∨ r.nr = 231) (hc : code < 256) :
      WriterCall r w { w with ended := some (.exited code) }
  /-- prctl, seccomp -/
  | installs (r : Req) (w : Writer) (f : Filter) (hn : r.nr = 157 ∨ r.nr = 317) : WriterCall r w { w with filters := f :: w.filters }
  /-- any other call may do anything, except remove a filter or raise the hard limit -/
  | other (r : Req) (w w' : Writer) (hn : r.nr ∉ writerCalls) (hf : w'.filters = w.filters) (hl : w'.limit = w.limit) : WriterCall r w w'

/-- Everything a program can do until it ends. -/
inductive Wrote : Writer → Writer → Prop
  | start (w : Writer) : Wrote w w
  | call {w w' w'' : Writer} (h : Wrote w w') (he : w'.ended = none) (r : Req) (ha : evalAll w'.filters r = .allow) (hk : WriterCall r w' w'') :
      Wrote w w''
  /-- it crashes, or somebody ends it -/
  | dies {w w' : Writer} (h : Wrote w w') (he : w'.ended = none) (sig : Nat) (core : Bool) :
      Wrote w { w' with ended := some (.signaled sig core) }

end Judger.Spec
