import Verif.Model.Killer

/-!
# The death of the process that called `run()`

The process may be killed at any moment: by a signal of its own caller, for want of memory, or by an interrupted terminal.  All its threads end at once,
the calling thread and the watchdog alike.  The child is another process and goes on; a signal reaches it only if it has asked for one.

Simplification: what the new parent does (it reaps the child when it has ended) is left out.
-/

set_option autoImplicit false

namespace Judger

/-- child.c:34-175, runner.c:62-64: the signal the child asks the kernel to send it when its parent dies (`prctl(PR_SET_PDEATHSIG, ...)`).  It asks for none. -/
def deathSignal : Option Nat := none

/-- The state when the process that called `run()` has been killed in state `s`: no watchdog (killer.c:14-33) any more. -/
def KState.orphaned (k : Watchdog) (s : KState) : KState :=
  { s with watch := .cancelled, child := if deathSignal = some SIGKILL then killChild k k.pid false s.child else s.child }

/-- `s'` comes after `s` when only the child and the clock are left to move. -/
inductive Alone (k : Watchdog) (s : KState) : KState → Prop
  | refl : Alone k s s
  | step {a : Actor} {s' s'' : KState} (h : Alone k s s') (ha : a = .clock ∨ a = .child) (hs : KStep k a s' s'') : Alone k s s''

end Judger
