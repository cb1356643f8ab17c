import Verif.Spec.Watchdog

/-!
# A machine that answers within a given time

What a caller may assume of the scheduler in order to speak of milliseconds: whoever can go on does so within `d` microseconds, and `sleep` returns at
most `d` microseconds late.
-/

set_option autoImplicit false

namespace Judger.Spec

/-- Nobody who can go on is kept waiting for more than `d` microseconds. -/
structure Prompt {k : Watchdog} (σ : Schedule k) (d : Nat) : Prop where
  main : ∀ i j, i ≤ j → (∀ m, i ≤ m → m ≤ j → MainCan (σ.state m)) → (∀ m, i ≤ m → m < j → σ.act m ≠ .main) →
    (σ.state j).now ≤ (σ.state i).now + d
  watch : ∀ i j, i ≤ j → (∀ m, i ≤ m → m ≤ j → WatchCan (σ.state m)) → (∀ m, i ≤ m → m < j → σ.act m ≠ .watch) →
    (σ.state j).now ≤ (σ.state i).now + d
  sleep : ∀ i pid wake, (σ.state i).watch = .asleep pid wake → (σ.state i).now ≤ wake + d

/-- `run()` is under way: the start time has been recorded and the call has not returned. -/
def UnderWay (s : KState) : Prop := s.main ≠ .init ∧ ∀ r, s.main ≠ .returned r ∧ s.main ≠ .exited r

end Judger.Spec
