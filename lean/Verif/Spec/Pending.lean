import Verif.Spec.Child

/-!
# What a forked child has of its caller's

Written from fork(2), exit(3), atexit(3), signal(7) and execve(2).  A forked child has a copy of the texts that its caller has printed into streams but not yet
written, and of its list of functions to be called at exit.  `exit` writes the texts and calls the functions; a death by a signal and `execve` do neither.
-/

set_option autoImplicit false

namespace Judger.Spec

/-- What the caller of run() has in hand when it forks. -/
structure InHand where
  /-- for each descriptor, what the streams on it have not yet written -/
  texts : Nat → CStr
  /-- functions registered with atexit, by name -/
  atexit : List CStr

/-- Nothing in hand. -/
def InHand.none : InHand := ⟨fun _ => [], []⟩

/-- What the child does with its copy when it ends this way: the texts are written, the functions are called. -/
def spilt (h : InHand) : Stop → InHand
  | .exited _ => h
  | .killed _ | .execed _ _ _ | .ub | .hung => .none

/-- What comes to a descriptor of what the caller had in hand: its own copy, when it gets to it, and the child's. -/
def comesTo (h : InHand) (s : Stop) (fd : Nat) : CStr := (spilt h s).texts fd ++ h.texts fd

end Judger.Spec
