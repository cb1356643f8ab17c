import Verif.Spec.Verdict

/-!
# What a process used before and after it became the judged program

Written from fork(2), execve(2), getrusage(2) and wait4(2); nothing of the code is used.  execve does not reset the resource usage of a process:
what wait4 reports is that of the copy of the caller until execve together with that of the program.
-/

set_option autoImplicit false

namespace Judger.Spec

/-- Times in microseconds, peaks of the resident set in KiB. -/
structure Phases where
  /-- the copy of the caller, from fork to execve -/
  setupUser : Nat
  setupSystem : Nat
  setupPeak : Nat
  /-- the program (and the descendants it waited for) -/
  user : Nat
  system : Nat
  peak : Nat

/-- What wait4 reports for these phases: times add up, of the peaks the higher counts. -/
structure Accounts (e : RunEnv) (ph : Phases) : Prop where
  utime : micros e.usage.utime = ph.setupUser + ph.user
  maxrss : e.usage.maxrss = max ph.setupPeak ph.peak

/-- The program itself stayed within its CPU time (user and system, in whole milliseconds) and memory limits. -/
def OwnWithin (c : Config) (ph : Phases) : Prop :=
  Within c.maxCpuTime ((ph.user + ph.system : Nat) / 1000 : Int) ∧ Within c.maxMemory (ph.peak * 1024 : Int)

/-- A process that was not killed under a CPU limit of `s` seconds (setrlimit(2): user and system time together, since fork) has not used that
much; for a program that has no descendants. -/
def UnderCpuLimit (s : Int) (ph : Phases) : Prop :=
  (ph.setupUser + ph.setupSystem + ph.user + ph.system : Nat) < s * 1000000

end Judger.Spec
