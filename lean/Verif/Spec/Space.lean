import Verif.Spec.Crowd

/-!
# How much memory the judged program and its descendants can have

Written from setrlimit(2) (RLIMIT_AS), mmap(2), brk(2), fork(2) and execve(2); nothing of the code is used.  The address space of a process does not
grow beyond its limit; a lower limit does not shrink it.  What a process has in memory is part of its address space.  A forked process
has a copy of its parent's.
-/

set_option autoImplicit false

namespace Judger.Spec

/-- A process and the size of its address space in bytes. -/
structure Dweller where
  proc : Proc
  space : Nat

/-- The judged program and its descendants, and how many other processes each user has. -/
structure House where
  dwellers : List Dweller
  others : Int → Nat

def House.crowd (k : House) : Crowd := ⟨k.dwellers.map Dweller.proc, k.others⟩

/-- The address space of all of them together. -/
def House.total (k : House) : Nat := (k.dwellers.map Dweller.space).sum

/-- Everything the judged program, its descendants and the rest of the system can do. -/
inductive Dwells : House → House → Prop
  | start (k : House) : Dwells k k
  | act {k l : House} (h : Dwells k l) (i : Nat) (x : Dweller) (p' : Proc) (hx : l.dwellers[i]? = some x) (ha : Act x.proc p') :
      Dwells k { l with dwellers := l.dwellers.set i { x with proc := p' } }
  /-- setrlimit, prlimit, as in `Life` -/
  | limit {k l : House} (h : Dwells k l) (i : Nat) (caller x : Dweller) (r : Res) (v : RLimit) (hc : caller ∈ l.dwellers)
      (hx : l.dwellers[i]? = some x) (hv : v.cur ≤ v.max) (ha : caller.proc.privileged = true ∨ v.max ≤ (x.proc.limits r).max) :
      Dwells k { l with dwellers := l.dwellers.set i { x with proc := { x.proc with limits := fun r' => if r' = r then v else x.proc.limits r' } } }
  /-- mmap, brk, mremap, munmap, the growth of the stack, and the new image after execve -/
  | maps {k l : House} (h : Dwells k l) (i : Nat) (x : Dweller) (n : Nat) (hx : l.dwellers[i]? = some x)
      (hn : (n : Int) ≤ (x.proc.limits .as).cur ∨ n ≤ x.space) : Dwells k { l with dwellers := l.dwellers.set i { x with space := n } }
  /-- fork, clone -/
  | forks {k l : House} (h : Dwells k l) (x : Dweller) (hx : x ∈ l.dwellers) (ha : ¬ForkRefused l.crowd x.proc) :
      Dwells k { l with dwellers := l.dwellers ++ [x] }
  | exits {k l : House} (h : Dwells k l) (i : Nat) : Dwells k { l with dwellers := l.dwellers.eraseIdx i }
  /-- other processes come and go -/
  | others {k l : House} (h : Dwells k l) (others : Int → Nat) : Dwells k { l with others := others }

end Judger.Spec
