import Verif.Spec.Watchdog

/-! # What may be left of a judging in the process that called `run()` -/

set_option autoImplicit false

namespace Judger.Spec

/-- No child process, not even a zombie: there was none, or it has been waited for. -/
def NoChild (s : KState) : Prop := s.child = .none ∨ s.child = .reaped

/-- No second thread. -/
def NoThread (s : KState) : Prop := s.watch = .absent ∨ s.watch = .ended ∨ s.watch = .cancelled

end Judger.Spec
