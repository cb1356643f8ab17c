import Verif.Spec.Life

/-!
# How many processes a user may have

Written from setrlimit(2) (RLIMIT_NPROC), fork(2) and execve(2) (EAGAIN); nothing of the code is used.  The kernel counts the processes of a real
user, whoever started them.  fork is refused to an unprivileged process whose user has reached the limit of that process; execve is refused to
a process that has changed its real user and whose new user, counting the process itself, has more processes than the limit.  The user root is
exempt.
-/

set_option autoImplicit false

namespace Judger.Spec

/-- The judged program and its descendants, and how many other processes each user has. -/
structure Crowd where
  procs : List Proc
  others : Int → Nat

/-- The processes of a user. -/
def Crowd.count (k : Crowd) (u : Int) : Nat := (k.procs.filter fun m => m.uid.r == u).length + k.others u

/-- fork is refused. -/
def ForkRefused (k : Crowd) (p : Proc) : Prop :=
  p.privileged = false ∧ p.uid.r ≠ 0 ∧ (p.limits .nproc).cur ≤ k.count p.uid.r

/-- execve is refused to the process `q`, which has just changed its user, when the user has `others` other processes. -/
def ExecRefused (q : Proc) (others : Nat) : Prop := q.uid.r ≠ 0 ∧ (q.limits .nproc).cur < others + 1

/-- Everything the judged program, its descendants and the rest of the system can do. -/
inductive Breeds : Crowd → Crowd → Prop
  | start (k : Crowd) : Breeds k k
  | act {k l : Crowd} (h : Breeds k l) (i : Nat) (p p' : Proc) (hp : l.procs[i]? = some p) (ha : Act p p') :
      Breeds k { l with procs := l.procs.set i p' }
  /-- setrlimit, prlimit, as in `Life` -/
  | limit {k l : Crowd} (h : Breeds k l) (i : Nat) (caller p : Proc) (r : Res) (v : RLimit) (hc : caller ∈ l.procs)
      (hp : l.procs[i]? = some p) (hv : v.cur ≤ v.max) (ha : caller.privileged = true ∨ v.max ≤ (p.limits r).max) :
      Breeds k { l with procs := l.procs.set i { p with limits := fun r' => if r' = r then v else p.limits r' } }
  /-- fork, clone -/
  | forks {k l : Crowd} (h : Breeds k l) (p : Proc) (hp : p ∈ l.procs) (ha : ¬ForkRefused l p) :
      Breeds k { l with procs := l.procs ++ [p] }
  | exits {k l : Crowd} (h : Breeds k l) (i : Nat) : Breeds k { l with procs := l.procs.eraseIdx i }
  /-- other processes come and go -/
  | others {k l : Crowd} (h : Breeds k l) (others : Int → Nat) : Breeds k { l with others := others }

end Judger.Spec
