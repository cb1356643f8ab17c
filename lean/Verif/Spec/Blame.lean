import Verif.Spec.Accepted
import Verif.Spec.Sandbox

/-!
# What a program that nobody else touches can die of

Written from signal(7), kill(2), setrlimit(2), seccomp(2) and wait(2); nothing of the code is used.
-/

set_option autoImplicit false

namespace Judger.Spec

/-- Signals the kernel itself sends to a process for what it does, or for a limit it passes: SIGILL, SIGTRAP, SIGBUS, SIGFPE, SIGKILL, SIGSEGV,
SIGPIPE, SIGXCPU, SIGXFSZ, SIGSYS. -/
def kernelSignals : List Nat := [4, 5, 7, 8, 9, 11, 13, 24, 25, 31]

/-- The ways in which a program that starts in `w` can be seen by its parent to change state, if no other process interferes: it exits, the kernel
kills it, or it dies of or is stopped by a signal after it, or a call that can have such effects, has sent one. -/
inductive LeftAlone (w : World) : Termination → Prop
  | exits (w' : World) (code : Nat) (h : Run w w') : LeftAlone w (.exited code)
  | killed (w' : World) (sig : Nat) (core : Bool) (h : Run w w') (hs : sig ∈ kernelSignals) : LeftAlone w (.signaled sig core)
  | signalled (w' : World) (sig pid : Nat) (core : Bool) (h : Run w w') (hp : .signalled pid ∈ w'.events) : LeftAlone w (.signaled sig core)
  | stopped (w' : World) (sig pid : Nat) (h : Run w w') (hp : .signalled pid ∈ w'.events) : LeftAlone w (.stopped sig)

/-- As `Course`, with nobody interfering but the watchdog, whose signal is SIGKILL: the forked child `p` becomes a program that is left alone, dies
before, or is killed by the watchdog before. -/
inductive Undisturbed (c : Config) (ce : ChildEnv) (p : Proc) : Termination → Prop
  | program (q : Proc) (w : World) (t : Termination) (h : Started c ce p q) (hw : w.filters = q.filters) (he : w.events = [])
      (ht : LeftAlone w t) : Undisturbed c ce p t
  | died (s : Stop) (q : Proc) (t : Termination) (h : Died c ce p s q) (hr : Reports s t) : Undisturbed c ce p t
  | late : Undisturbed c ce p (.signaled 9 false)

end Judger.Spec
