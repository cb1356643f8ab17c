import Verif.Model.Seccomp

/-!
# Who can lock the judger's log

Written from flock(2), fork(2), open(2) and seccomp(2); nothing of the code is used.  A lock taken with `flock` belongs to the open description; it
is released by `flock(LOCK_UN)` through any descriptor of that description, or when all of them are closed.  To take it any descriptor of the file is
enough, however it was opened.  As long as it is taken, others wait in `flock(LOCK_EX)`.
-/

set_option autoImplicit false

namespace Judger.Spec

/-- The log, and the processes of the program. -/
structure Queue where
  /-- how many entries other judgers have written -/
  entries : Nat
  /-- the program has locked it -/
  taken : Bool
  /-- the filters of each process of the program -/
  procs : List (List Filter)

/-- Everything that happens to the lock.  `reach`: the program has a descriptor of the log, inherited or opened by name. -/
inductive Locks (reach : Prop) : Queue → Queue → Prop
  | start (l : Queue) : Locks reach l l
  /-- another judger gets the lock, writes and releases the lock -/
  | tells {l m : Queue} (h : Locks reach l m) (ht : m.taken = false) : Locks reach l { m with entries := m.entries + 1 }
  /-- flock(LOCK_EX) or flock(LOCK_SH) -/
  | takes {l m : Queue} (h : Locks reach l m) (hr : reach) (fs : List Filter) (hf : fs ∈ m.procs) (r : Req) (hn : r.native = false ∨ r.nr = 73)
      (ha : evalAll fs r = .allow) : Locks reach l { m with taken := true }
  /-- flock(LOCK_UN), close -/
  | frees {l m : Queue} (h : Locks reach l m) : Locks reach l { m with taken := false }
  | installs {l m : Queue} (h : Locks reach l m) (a b : List (List Filter)) (fs : List Filter) (f : Filter) (hf : m.procs = a ++ fs :: b) :
      Locks reach l { m with procs := a ++ (f :: fs) :: b }
  | forks {l m : Queue} (h : Locks reach l m) (fs : List Filter) (hf : fs ∈ m.procs) (r : Req) (hn : r.nr = 56 ∨ r.nr = 57 ∨ r.nr = 58 ∨ r.nr = 435)
      (ha : evalAll fs r = .allow) : Locks reach l { m with procs := m.procs ++ [fs] }
  /-- the descriptors of a process are closed when it ends; the judger's own is taken to be closed already -/
  | ends {l m : Queue} (h : Locks reach l m) (a b : List (List Filter)) (fs : List Filter) (hf : m.procs = a ++ fs :: b) :
      Locks reach l { m with procs := a ++ b, taken := m.taken && !(a ++ b).isEmpty }

end Judger.Spec
