import Verif.Spec.Verdict

/-!
# The kernel's CPU limit, and a clock that can be set
-/

set_option autoImplicit false

namespace Judger.Spec

/-- The kernel killed the process for its CPU limit of `s` seconds: setrlimit(2), with soft and hard limit equal, sends SIGKILL when user
and system time together reach the limit. -/
structure KilledForCpu (s : Int) (e : RunEnv) (stime : Timeval) (t : Termination) : Prop where
  how : ∃ core, t = .signaled 9 core
  used : s * 1000000 ≤ micros e.usage.utime + micros stime
  sane : 0 ≤ micros stime

/-- The run took `elapsed` microseconds, during which the system clock was set forward by `step` microseconds (back, if
negative). -/
structure ClockStep (e : RunEnv) (elapsed step : Int) : Prop where
  nonneg : 0 ≤ elapsed
  reads : micros e.finish = micros e.start + elapsed + step

end Judger.Spec
