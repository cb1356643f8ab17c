import Verif.Model.Killer

/-! # What the caller may expect of the real-time watchdog -/

set_option autoImplicit false

namespace Judger.Spec

/-- Milliseconds, exactly `n`, as microseconds. -/
def ms (n : Int) : Int := n * 1000

/-- The smallest number of whole seconds above `t` milliseconds. -/
def WholeSecondsAbove (t n : Int) : Prop := t < n * 1000 ∧ ∀ m : Int, t < m * 1000 → n ≤ m

/-- A limit `run()` accepts (and that an `int` can hold). -/
def RealLimitOk (t : Int) : Prop := 1 ≤ t ∧ t ≤ INT_MAX

instance (t : Int) : Decidable (RealLimitOk t) := inferInstanceAs (Decidable (_ ∧ _))

/-- The caller can make a step that is not a failure. -/
def MainCan (s : KState) : Prop :=
  match s.main with
  | .waiting => (∃ t b, s.child = .ended t b) ∨ ∃ sig, s.child = .stopped sig
  | .returned _ | .exited _ => False
  | _ => True

/-- The watchdog can make a step. -/
def WatchCan (s : KState) : Prop :=
  match s.watch with
  | .created | .ready _ _ | .detached _ _ | .awake _ => True
  | .asleep _ w => w ≤ s.now ∨ s.cancelReq = true
  | _ => False

/-- The scheduler starves nobody and the clock runs on. -/
structure Fair {k : Watchdog} (σ : Schedule k) : Prop where
  main : ∀ i, (∀ j, i ≤ j → MainCan (σ.state j)) → ∃ j, i ≤ j ∧ σ.act j = .main
  watch : ∀ i, (∀ j, i ≤ j → WatchCan (σ.state j)) → ∃ j, i ≤ j ∧ σ.act j = .watch
  time : ∀ t, ∃ i, t ≤ (σ.state i).now

end Judger.Spec
