import Verif.Spec.Watchdog
import Verif.Model.Orphan

/-! # What is left of a judging when the judger is killed -/

set_option autoImplicit false

namespace Judger.Spec

/-- The judged program has not ended. -/
def Alive (s : KState) : Prop := s.child = .running ∨ ∃ sig, s.child = .stopped sig

/-- The caller is before `fork`, or knows that the child has ended, or has killed it. -/
def Settled : MainPc → Prop
  | .init | .started => True
  | .forked | .inBlock | .waiting => False
  | .waited t _ | .timed t _ => t.Ended
  | .returned (.verdict t _) | .exited (.verdict t _) => t.Ended
  | .returned _ | .exited _ => True

end Judger.Spec
