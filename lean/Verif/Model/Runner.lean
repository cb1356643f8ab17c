import Verif.Model.Config

/-!
# `runner.c`: `run()` in the calling process

Every OS call `run()` makes is a field of `RunEnv`: the theorems quantify over all of them.  The externally visible calls are
recorded, in order, in a list of `Eff`.  What the watchdog thread and the child do meanwhile is the subject of
`Model/Killer` and `Model/Child`; here they show up as the wait status, the resource usage and the second timestamp.
-/

set_option autoImplicit false

namespace Judger

/-- `struct timeval`. -/
structure Timeval where
  sec : Int
  usec : Int
deriving Repr, DecidableEq

/-- The two fields of `struct rusage` that runner.c reads (runner.c:109-111).  `tv_sec * 1000` and `ru_maxrss * 1024` are taken not to overflow a `long`: no process
lives for 2^53 seconds or has 2^53 KiB. -/
structure RUsage where
  utime : Timeval
  maxrss : Int
deriving Repr, DecidableEq

/-- What `fork()` returned (runner.c:56-65). -/
inductive ForkRet where
  | failed
  | child
  | parent (pid : Nat)
deriving Repr, DecidableEq

/-- The outcome of every OS call that `run()` makes in the calling process. -/
structure RunEnv where
  /-- `fopen(log_path, "a")` succeeded (logger.c:15) -/
  logOpens : Bool
  /-- `flock(LOCK_EX)` on it succeeds (logger.c:55) -/
  logLocks : Bool
  /-- `write` to it does not return -1 (logger.c:56) -/
  logWrites : Bool
  /-- `getuid()` (runner.c:37) -/
  getuid : Nat
  /-- first `gettimeofday` (runner.c:54) -/
  start : Timeval
  /-- `fork()` (runner.c:56) -/
  fork : ForkRet
  /-- `pthread_create` returned 0 (runner.c:73) -/
  pthreadOk : Bool
  /-- `wait4` did not return -1 (runner.c:85) -/
  waitOk : Bool
  /-- the status stored by `wait4` -/
  status : Nat
  /-- the resource usage stored by `wait4` -/
  usage : RUsage
  /-- second `gettimeofday` (runner.c:90) -/
  finish : Timeval
deriving Repr, DecidableEq

/-- Externally visible calls of `run()` in the calling process. -/
inductive Eff where
  | logOpen (path : CStr)
  | logOpenFailed (path : CStr)
  | logWrite (msg : CStr)
  /-- `log_write` could not write its line and says so on stderr (logger.c:32-35, 57, 63) -/
  | stderrNote (msg : CStr)
  | logClose
  | forked
  | startTimer (pid : Nat) (timeout : Int)
  | kill (pid : Nat) (sig : Nat)
  | waited (pid : Nat)
  | cancelTimer
deriving Repr, DecidableEq

/-- How control leaves `run()`. -/
inductive RunOut where
  /-- `run()` returned to its caller in the calling process -/
  | returned (r : Result) (effs : List Eff)
  /-- this is the forked child: it enters `child_process(log_fp, _config)` (runner.c:62-64) -/
  | inChild (effs : List Eff)
deriving Repr, DecidableEq

/-- runner.c:22-26 `init_result`: every field of `struct result` is assigned. -/
def initResult (r : Result) : Result :=
  let r := { r with result := SUCCESS, error := SUCCESS }
  let r := { r with cpuTime := 0, realTime := 0, signal := 0, exitCode := 0 }
  { r with memory := 0 }

/-- logger.c:14-20 `log_open`. -/
def logOpenEff (e : RunEnv) (path : CStr) : List Eff :=
  if e.logOpens then [.logOpen path] else [.logOpenFailed path]

/-- logger.c:30-66 `log_write` as seen from `run()`: a line, or a note on stderr.  (The bytes are modelled in `Model/Logger`;
`run()` calls it at most once.) -/
def logWriteEff (e : RunEnv) (msg : CStr) : List Eff :=
  if e.logOpens then
    if e.logLocks then
      if e.logWrites then [.logWrite msg] else [.stderrNote c!"write error"]
    else [.stderrNote c!"flock error"]
  else [.stderrNote c!"can not open log file"]

/-- logger.c:23-27 `log_close`. -/
def logCloseEff (e : RunEnv) : List Eff :=
  if e.logOpens then [.logClose] else []

/-- runner.h:12-20 `ERROR_EXIT(error_code)`; `name` is the stringised code. -/
def errorExit (e : RunEnv) (r : Result) (effs : List Eff) (code : Int) (name : CStr) : RunOut :=
  .returned { r with error := code } (effs ++ logWriteEff e (c!"Error: " ++ name) ++ logCloseEff e)

/-- runner.c:43-48, the disjunction that rejects a configuration. -/
def configRejected (c : Config) : Bool :=
  (decide (c.maxCpuTime < 1) && decide (c.maxCpuTime ≠ UNLIMITED)) ||
  (decide (c.maxRealTime < 1) && decide (c.maxRealTime ≠ UNLIMITED)) ||
  decide (c.maxStack < 1) ||
  (decide (c.maxMemory < 1) && decide (c.maxMemory ≠ UNLIMITED)) ||
  (decide (c.maxProcessNumber < 1) && decide (c.maxProcessNumber ≠ UNLIMITED)) ||
  (decide (c.maxOutputSize < 1) && decide (c.maxOutputSize ≠ UNLIMITED))

/-- glibc `WIFSIGNALED(status)`: `((signed char)((status & 0x7f) + 1) >> 1) > 0` (used at runner.c:100). -/
def wifsignaled (status : Nat) : Bool :=
  let t : Int := (status % 128 : Nat) + 1
  let sc : Int := if t ≥ 128 then t - 256 else t
  decide (sc / 2 > 0)

/-- glibc `WTERMSIG(status)`: `status & 0x7f` (used at runner.c:101). -/
def wtermsig (status : Nat) : Nat := status % 128

/-- glibc `WEXITSTATUS(status)`: `(status & 0xff00) >> 8` (used at runner.c:108). -/
def wexitstatus (status : Nat) : Nat := status / 256 % 256

/-- runner.c:91, the elapsed time in milliseconds; C division truncates towards zero. -/
def realTimeOf (start finish : Timeval) : Int :=
  castInt (finish.sec * 1000 + finish.usec.tdiv 1000 - start.sec * 1000 - start.usec.tdiv 1000)

/-- runner.c:109-110. -/
def cpuTimeOf (u : RUsage) : Int :=
  castInt (u.utime.sec * 1000 + u.utime.usec.tdiv 1000)

/-- The C statement `if (cond) { _result->result = v; }`. -/
def Result.setIf (cond : Prop) [Decidable cond] (v : Int) (r : Result) : Result :=
  if cond then { r with result := v } else r

/-- runner.c:100-139, from the wait status and the usage to the result; `r` already holds `real_time`. -/
def judgeStatus (c : Config) (e : RunEnv) (r : Result) : Result :=
  -- runner.c:100-102
  let r := if wifsignaled e.status then { r with signal := (wtermsig e.status : Int) } else r
  if r.signal = (SIGUSR1 : Int) then
    { r with result := SYSTEM_ERROR }
  else
    -- runner.c:108-111
    let r := { r with exitCode := (wexitstatus e.status : Int) }
    let r := { r with cpuTime := cpuTimeOf e.usage }
    let r := { r with memory := e.usage.maxrss * 1024 }
    -- runner.c:113-115
    let r := r.setIf (r.exitCode ≠ 0) RUNTIME_ERROR
    if r.signal = (SIGSEGV : Int) then
      -- runner.c:118-123
      if c.maxMemory ≠ UNLIMITED ∧ r.memory > c.maxMemory then
        { r with result := MEMORY_LIMIT_EXCEEDED }
      else
        { r with result := RUNTIME_ERROR }
    else
      -- runner.c:126-137
      let r := r.setIf (r.signal ≠ 0) RUNTIME_ERROR
      let r := r.setIf (c.maxMemory ≠ UNLIMITED ∧ r.memory > c.maxMemory) MEMORY_LIMIT_EXCEEDED
      let r := r.setIf (c.maxRealTime ≠ UNLIMITED ∧ r.realTime > c.maxRealTime) REAL_TIME_LIMIT_EXCEEDED
      let r := r.setIf (c.maxCpuTime ≠ UNLIMITED ∧ r.cpuTime > c.maxCpuTime) CPU_TIME_LIMIT_EXCEEDED
      r

/-- runner.c:65-142, the branch `child_pid > 0`. -/
def runParent (c : Config) (e : RunEnv) (r : Result) (effs : List Eff) (pid : Nat) : RunOut :=
  -- runner.c:67-77
  let timed := decide (c.maxRealTime ≠ UNLIMITED)
  if timed && !e.pthreadOk then
    errorExit e r (effs ++ [.kill pid SIGKILL]) PTHREAD_FAILED c!"PTHREAD_FAILED"
  else
    let effs := if timed then effs ++ [.startTimer pid c.maxRealTime] else effs
    -- runner.c:85-88
    if !e.waitOk then
      errorExit e r (effs ++ [.kill pid SIGKILL]) WAIT_FAILED c!"WAIT_FAILED"
    else
      let effs := effs ++ [.waited pid]
      -- runner.c:90-98
      let r := { r with realTime := realTimeOf e.start e.finish }
      let effs := if timed then effs ++ [.cancelTimer] else effs
      -- runner.c:100-141
      .returned (judgeStatus c e r) (effs ++ logCloseEff e)

/-- runner.c:29-143 `run(_config, _result)`; `prior` is what `*_result` held before the call. -/
def run (c : Config) (prior : Result) (e : RunEnv) : RunOut :=
  let effs := logOpenEff e c.logPath
  let r := initResult prior
  if e.getuid ≠ 0 then
    errorExit e r effs ROOT_REQUIRED c!"ROOT_REQUIRED"
  else if configRejected c then
    errorExit e r effs INVALID_CONFIG c!"INVALID_CONFIG"
  else
    match e.fork with
    | .failed => errorExit e r effs FORK_FAILED c!"FORK_FAILED"
    | .child => .inChild (effs ++ [.forked])
    | .parent pid => runParent c e r (effs ++ [.forked]) pid

end Judger
