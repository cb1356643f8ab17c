import Verif.Base.C

/-! # `runner.h`: constants, configuration and result -/

set_option autoImplicit false

namespace Judger

/-- runner.h:10 `#define UNLIMITED -1`. -/
def UNLIMITED : Int := -1
/-- runner.h:8 `#define VERSION 0x020101`. -/
def VERSION : Nat := 0x020101
/-- runner.h:22-23 `ARGS_MAX_NUMBER`, `ENV_MAX_NUMBER`. -/
def ARGS_MAX_NUMBER : Nat := 256
@[inherit_doc ARGS_MAX_NUMBER] def ENV_MAX_NUMBER : Nat := 256

/-! runner.h:26-39, the error codes. -/
def SUCCESS : Int := 0
def INVALID_CONFIG : Int := -1
def FORK_FAILED : Int := -2
def PTHREAD_FAILED : Int := -3
def WAIT_FAILED : Int := -4
def ROOT_REQUIRED : Int := -5
def LOAD_SECCOMP_FAILED : Int := -6
def SETRLIMIT_FAILED : Int := -7
def DUP2_FAILED : Int := -8
def SETUID_FAILED : Int := -9
def EXECVE_FAILED : Int := -10
def SPJ_ERROR : Int := -11

/-! runner.h:63-70, the verdicts. -/
def WRONG_ANSWER : Int := -1
def CPU_TIME_LIMIT_EXCEEDED : Int := 1
def REAL_TIME_LIMIT_EXCEEDED : Int := 2
def MEMORY_LIMIT_EXCEEDED : Int := 3
def RUNTIME_ERROR : Int := 4
def SYSTEM_ERROR : Int := 5

/-! Signal numbers of `<signal.h>` on x86-64 Linux. -/
def SIGKILL : Nat := 9
def SIGUSR1 : Nat := 10
def SIGSEGV : Nat := 11
def SIGXFSZ : Nat := 25
def SIGSYS : Nat := 31

/-- runner.h:42-60 `struct config`.  A `char *` that may be NULL is an `Option`; `args` and `env` are the strings up
to the first NULL pointer (what `execve` reads).  `int`/`long`/`uid_t` fields are integers; the range of each C type is the
predicate `Config.InRange`.  (How `main` fills the two fixed-size arrays is modelled in `Model/Main`.) -/
structure Config where
  maxCpuTime : Int
  maxRealTime : Int
  maxMemory : Int
  maxStack : Int
  maxProcessNumber : Int
  maxOutputSize : Int
  memoryLimitCheckOnly : Int
  exePath : CStr
  inputPath : Option CStr
  outputPath : Option CStr
  errorPath : Option CStr
  args : List CStr
  env : List CStr
  logPath : CStr
  seccompRuleName : Option CStr
  uid : Int
  gid : Int
deriving Repr, DecidableEq

/-- Every field holds a value of its C type (runner.h:42-60). -/
structure Config.InRange (c : Config) : Prop where
  cpu : IsInt c.maxCpuTime
  real : IsInt c.maxRealTime
  mem : IsLong c.maxMemory
  stack : IsLong c.maxStack
  nproc : IsInt c.maxProcessNumber
  out : IsLong c.maxOutputSize
  check : IsInt c.memoryLimitCheckOnly
  uid : 0 ≤ c.uid ∧ c.uid < 4294967296
  gid : 0 ≤ c.gid ∧ c.gid < 4294967296

/-- runner.h:73-81 `struct result`. -/
structure Result where
  cpuTime : Int
  realTime : Int
  memory : Int
  signal : Int
  exitCode : Int
  error : Int
  result : Int
deriving Repr, DecidableEq

end Judger
