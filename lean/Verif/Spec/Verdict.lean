import Verif.Model.Runner

/-!
# What the caller of `run()` may rely on

Written from the English properties, the wait(2) status encoding and the documented verdict rules; it uses only the
data types of the model (`Config`, `Timeval`, ...), none of its functions.
-/

set_option autoImplicit false

namespace Judger.Spec

/-- How a child changed state, as `wait4` reports it. -/
inductive Termination where
  | exited (code : Nat)
  | signaled (sig : Nat) (coreDumped : Bool)
  | stopped (sig : Nat)
deriving Repr, DecidableEq

/-- The values the kernel can report: exit codes are one byte, signals are 1..64. -/
def Termination.Valid : Termination → Prop
  | .exited code => code < 256
  | .signaled sig _ => 1 ≤ sig ∧ sig ≤ 64
  | .stopped sig => 1 ≤ sig ∧ sig ≤ 64

instance (t : Termination) : Decidable t.Valid := by
  cases t <;> unfold Termination.Valid <;> infer_instance

/-- The status word of wait(2). -/
def Termination.waitStatus : Termination → Nat
  | .exited code => code * 256
  | .signaled sig core => sig + (if core then 128 else 0)
  | .stopped sig => sig * 256 + 127

/-- The process is gone. -/
def Termination.Ended : Termination → Prop
  | .stopped _ => False
  | _ => True

/-- A normalised timestamp. -/
def Normal (t : Timeval) : Prop := 0 ≤ t.usec ∧ t.usec < 1000000

/-- A timestamp in microseconds. -/
def micros (t : Timeval) : Int := t.sec * 1000000 + t.usec

/-- A timestamp in whole milliseconds, rounded down. -/
def millis (t : Timeval) : Int := micros t / 1000

/-- What was measured about a run: milliseconds, milliseconds, bytes. -/
structure Usage where
  cpuMs : Int
  realMs : Int
  memBytes : Int
deriving Repr, DecidableEq

/-- The measurement an `int`/`int`/`long` result can hold (values beyond 24 days wrap around like any C `int`). -/
def usageOf (e : RunEnv) : Usage where
  cpuMs := castInt (millis e.usage.utime)
  realMs := castInt (millis e.finish - millis e.start)
  memBytes := e.usage.maxrss * 1024

/-- A limit is set and was passed. -/
def Exceeds (limit used : Int) : Prop := limit ≠ -1 ∧ used > limit

instance (limit used : Int) : Decidable (Exceeds limit used) := inferInstanceAs (Decidable (_ ∧ _))

/-- A limit is respected: unlimited, or not passed. -/
def Within (limit used : Int) : Prop := limit = -1 ∨ used ≤ limit

/-- The documented verdict, first matching rule wins
(0 accepted, 1 CPU time, 2 real time, 3 memory, 4 runtime error, 5 system error). -/
def verdict (c : Config) (t : Termination) (u : Usage) : Int :=
  match t with
  | .signaled 10 _ => 5
  | .signaled 11 _ => if Exceeds c.maxMemory u.memBytes then 3 else 4
  | t =>
    if Exceeds c.maxCpuTime u.cpuMs then 1
    else if Exceeds c.maxRealTime u.realMs then 2
    else if Exceeds c.maxMemory u.memBytes then 3
    else if t = .exited 0 then 0
    else 4

/-- A limit that the caller may configure: -1 (unlimited) or positive. -/
def LimitOk (x : Int) : Prop := x = -1 ∨ 1 ≤ x

/-- A configuration the documentation allows. -/
def ConfigOk (c : Config) : Prop :=
  LimitOk c.maxCpuTime ∧ LimitOk c.maxRealTime ∧ LimitOk c.maxMemory ∧
  LimitOk c.maxProcessNumber ∧ LimitOk c.maxOutputSize ∧ 1 ≤ c.maxStack

/-- The OS calls of a run all work, and the child with this pid reported `t`. -/
structure Completed (c : Config) (e : RunEnv) (pid : Nat) (t : Termination) : Prop where
  root : e.getuid = 0
  fork : e.fork = .parent pid
  pthread : c.maxRealTime = -1 ∨ e.pthreadOk = true
  wait : e.waitOk = true
  valid : t.Valid
  status : e.status = t.waitStatus
  normUtime : Normal e.usage.utime
  normStart : Normal e.start
  normFinish : Normal e.finish

/-- The `Result` before anything is measured. -/
def noResult (error : Int) : Result := ⟨0, 0, 0, 0, 0, error, 0⟩

/-- Some process other than the caller was created, signalled or waited for. -/
def Touches : Eff → Prop
  | .forked | .startTimer _ _ | .kill _ _ | .waited _ | .cancelTimer => True
  | _ => False

/-- The calls that concern the log. -/
def isLogEff : Eff → Bool
  | .logOpen _ | .logOpenFailed _ | .logWrite _ | .stderrNote _ | .logClose => true
  | _ => false

/-- `b` is at least as permissive a limit as `a`. -/
def LimitLe (a b : Int) : Prop := b = -1 ∨ (a ≠ -1 ∧ a ≤ b)

end Judger.Spec
