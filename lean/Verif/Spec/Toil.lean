import Verif.Spec.Life

/-!
# How much CPU time the judged program and its descendants can use

Written from setrlimit(2) (RLIMIT_CPU), fork(2), execve(2) and seccomp(2); nothing of the code is used.  The kernel compares the CPU time of a process, user
and system, with its hard limit at every tick of the clock, and kills it when the limit is reached.  A forked process starts with no CPU time used; its
limit is that of its parent.  `tick` is the most CPU time, in microseconds, that passes between two comparisons.
-/

set_option autoImplicit false

namespace Judger.Spec

/-- A process and its CPU time in microseconds. -/
structure Toiler where
  proc : Proc
  used : Nat

/-- The judged program and its descendants, and the CPU time of all of them, also of those that have ended. -/
structure Mill where
  toilers : List Toiler
  total : Nat

/-- Everything the judged program and its descendants can do. -/
inductive Grinds (tick : Nat) : Mill → Mill → Prop
  | start (k : Mill) : Grinds tick k k
  | act {k l : Mill} (h : Grinds tick k l) (i : Nat) (x : Toiler) (p' : Proc) (hx : l.toilers[i]? = some x) (ha : Act x.proc p') :
      Grinds tick k { l with toilers := l.toilers.set i { x with proc := p' } }
  /-- setrlimit, prlimit, as in `Life` -/
  | limit {k l : Mill} (h : Grinds tick k l) (i : Nat) (caller x : Toiler) (r : Res) (v : RLimit) (hc : caller ∈ l.toilers)
      (hx : l.toilers[i]? = some x) (hv : v.cur ≤ v.max) (ha : caller.proc.privileged = true ∨ v.max ≤ (x.proc.limits r).max) :
      Grinds tick k { l with toilers := l.toilers.set i { x with proc := { x.proc with limits := fun r' => if r' = r then v else x.proc.limits r' } } }
  /-- computing until the next comparison: the limit had not been reached at the last one -/
  | computes {k l : Mill} (h : Grinds tick k l) (i : Nat) (x : Toiler) (n : Nat) (hx : l.toilers[i]? = some x) (hn : n ≤ tick)
      (hl : (x.used : Int) < (x.proc.limits .cpu).max * 1000000) :
      Grinds tick k { l with toilers := l.toilers.set i { x with used := x.used + n }, total := l.total + n }
  | forks {k l : Mill} (h : Grinds tick k l) (x : Toiler) (r : Req) (hx : x ∈ l.toilers) (hn : r.nr = 56 ∨ r.nr = 57 ∨ r.nr = 58 ∨ r.nr = 435)
      (ha : evalAll x.proc.filters r = .allow) : Grinds tick k { l with toilers := l.toilers ++ [⟨x.proc, 0⟩] }
  | exits {k l : Mill} (h : Grinds tick k l) (i : Nat) : Grinds tick k { l with toilers := l.toilers.eraseIdx i }

end Judger.Spec
