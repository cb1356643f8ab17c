import Verif.Model.Kernel

/-! # `child.c` and `child.h`: what the forked child does until it runs the program or dies -/

set_option autoImplicit false

namespace Judger

open M

/-- logger.c:43 `localtime` as executed by the child.  It takes the lock of the time zone, which glibc does not renew in a forked child: if it was taken
at the fork, the child waits for ever. -/
def localTime : M Unit := do
  let e ← getEnv
  if e.clockHeld then
    stopWith .hung

/-- logger.c:30-66 `log_write` as executed by the child: what it asks of the kernel.  (The text is modelled in
`Model/Logger`; `localtime` may also read /etc/localtime, which no rule set forbids — not modelled.)  A write to a regular
file at or beyond the file-size limit raises SIGXFSZ; if that does not end the process, the write fails (setrlimit(2)). -/
def logWriteChild (msg : CStr) : M Unit := do
  let e ← getEnv
  match e.log with
  | none => noteStderr                                                   -- logger.c:32-35
  | some f =>
    localTime                                                            -- logger.c:43
    let locked ← attempt .logLock (Req.mk' NR_flock [argOf f.fd, 2])     -- logger.c:55
    if locked then
      let go ← enter (Req.mk' NR_write [argOf f.fd, e.bufAddr, 100])     -- logger.c:56
      let p ← getProc
      let full := e.logRegular && decide ((p.limits .fsize).cur ≤ e.logSize)
      if go && full && p.deadly SIGXFSZ then
        stopWith (.killed SIGXFSZ)
      else if go && !full && !e.fails .logWrite then
        modify fun p => { p with notes := msg :: p.notes }
        let _ ← attempt .logUnlock (Req.mk' NR_flock [argOf f.fd, 8])    -- logger.c:60
        return ()
      else
        noteStderr                                                       -- logger.c:57
    else
      noteStderr                                                         -- logger.c:63

/-- child.c:27-31 `close_file`. -/
def closeFile : Option File → M Unit
  | none => return ()
  | some f => fclose f

/-- glibc `raise(sig)`: `rt_sigprocmask`, `getpid`, `gettid`, `tgkill`, `rt_sigprocmask`; the last restores the mask. -/
def raiseUsr1 : M Unit := do
  let e ← getEnv
  plain NR_rt_sigprocmask [0, e.bufAddr, e.bufAddr, 8]
  plain NR_getpid []
  plain NR_gettid []
  let go ← enter (Req.mk' NR_tgkill [e.bufAddr, e.bufAddr, argOf SIGUSR1])
  let p ← getProc
  if go && p.deadly SIGUSR1 then
    stopWith (.killed SIGUSR1)
  else
    plain NR_rt_sigprocmask [2, e.bufAddr, 0, 8]

/-- `exit(code)`: `exit_group`. -/
def exitWith {α} (code : Nat) : M α := do
  plain NR_exit_group [argOf code]
  stopWith (.exited code)

/-- child.h:9, the message; `code` is the stringised error code. -/
def childErrorText (e : ChildEnv) (code : CStr) : CStr :=
  c!"Error: System errno: " ++ e.errnoText ++ c!"; Internal errno: " ++ code

/-- child.h:9-17, `CHILD_ERROR_EXIT` up to and including `raise(SIGUSR1)`; the three FILE variables as they are at the
point of use. -/
def childErrorBody (code : CStr) (input output error : Option File) : M Unit := do
  let e ← getEnv
  logWriteChild (childErrorText e code)
  closeFile input
  if output = error then
    closeFile output
  else
    closeFile output
    closeFile error
  raiseUsr1

/-- child.h:7-19 `CHILD_ERROR_EXIT`. -/
def childErrorExit {α} (code : CStr) (input output error : Option File) : M α := do
  childErrorBody code input output error
  exitWith 1

/-- child.c:37-43, 47-55, 67-73, 76-82: `setrlimit(r, {v, v})` if wanted. -/
def limitStep (r : Res) (wanted : Bool) (v : Int) : M Unit := do
  if wanted then
    if !(← setrlimit r v) then
      childErrorExit c!"SETRLIMIT_FAILED" none none none

/-- child.c:58-64; `max_cpu_time + 1000` is evaluated in `int`. -/
def cpuStep (c : Config) : M Unit := do
  if c.maxCpuTime ≠ UNLIMITED then
    match addInt c.maxCpuTime 1000 with
    | .ub => stopWith .ub
    | .ok s =>
      if !(← setrlimit .cpu (castU64 (s.tdiv 1000))) then
        childErrorExit c!"SETRLIMIT_FAILED" none none none

/-- child.c:84-96. -/
def inputStep (c : Config) : M (Option File) := do
  match c.inputPath with
  | none => return none
  | some path =>
    match ← fopen .openInput path false with
    | none => childErrorExit c!"DUP2_FAILED" none none none
    | some f =>
      if !(← dup2 .dupInput f.fd 0) then
        childErrorExit c!"DUP2_FAILED" (some f) none none
      return some f

/-- child.c:98-107. -/
def outputStep (c : Config) (input : Option File) : M (Option File) := do
  match c.outputPath with
  | none => return none
  | some path =>
    match ← fopen .openOutput path true with
    | none => childErrorExit c!"DUP2_FAILED" input none none
    | some f =>
      if !(← dup2 .dupOutput f.fd 1) then
        childErrorExit c!"DUP2_FAILED" input (some f) none
      return some f

/-- child.c:109-126. -/
def errorStep (c : Config) (input output : Option File) : M (Option File) := do
  match c.errorPath with
  | none => return none
  | some path =>
    let file ←
      if c.outputPath = some path then
        pure output                                         -- child.c:111-113
      else
        match ← fopen .openError path true with             -- child.c:115-119
        | none => childErrorExit c!"DUP2_FAILED" input output none
        | some f => pure (some f)
    match file with
    | none => stopWith .ub                                  -- fileno(NULL); unreachable
    | some f =>
      if !(← dup2 .dupError f.fd 2) then
        childErrorExit c!"DUP2_FAILED" input output (some f)
      return some f

/-- child.c:128-132; `gid_t` is unsigned, so `-1` is 4294967295. -/
def gidStep (c : Config) (input output error : Option File) : M Unit := do
  if c.gid ≠ castU32 (-1) then
    if !(← setgid c.gid) then
      childErrorExit c!"SETUID_FAILED" input output error
    if !(← setgroups [c.gid]) then
      childErrorExit c!"SETUID_FAILED" input output error

/-- child.c:135-137. -/
def uidStep (c : Config) (input output error : Option File) : M Unit := do
  if c.uid ≠ castU32 (-1) then
    if !(← setuid c.uid) then
      childErrorExit c!"SETUID_FAILED" input output error

/-- The `seccomp_rule_add` calls, in order, starting with number `k`; the first failure is reported. -/
def ruleAddAll (k : Nat) (ctx : Filter) : List Rule → M (Option Filter)
  | [] => return some ctx
  | u :: us => do
    let e ← getEnv
    if e.fails (.scRule k) || u.action == ctx.dflt then
      return none
    else
      ruleAddAll (k + 1) { ctx with rules := ctx.rules ++ [u] } us

/-- `seccomp_load`: libseccomp first sets no_new_privs (`SCMP_FLTATR_CTL_NNP` is on by default), then installs the
filter. -/
def seccompLoad (f : Filter) : M Bool := do
  let e ← getEnv
  let ok ← enter (Req.mk' NR_prctl [38, 1, 0, 0, 0])
  if ok then
    modify fun p => { p with noNewPrivs := true }
    let ok ← attempt .scLoad (Req.mk' NR_seccomp [1, 0, e.bufAddr])
    if ok then
      modify fun p => { p with filters := f :: p.filters }
      return true
    else
      return false
  else
    return false

/-- The shape shared by all functions in rules/*.c: init, add rules, load, release; every failure returns
LOAD_SECCOMP_FAILED (c_cpp.c:41-90, general.c:20-58, golang.c:20-50, node.c:20-35). -/
def loadRules (dflt : Action) (rules : List Rule) : M Int := do
  let e ← getEnv
  if e.fails .scInit then
    return LOAD_SECCOMP_FAILED
  match ← ruleAddAll 0 ⟨dflt, []⟩ rules with
  | none => return LOAD_SECCOMP_FAILED
  | some ctx =>
    if !(← seccompLoad ctx) then
      return LOAD_SECCOMP_FAILED
    return 0

/-- c_cpp.c:11-91. -/
def _cCppSeccompRules (allowWrite : Bool) : M Int := do
  let e ← getEnv
  loadRules .kill (cCppRules e.exeAddr allowWrite)
/-- c_cpp.c:93-95. -/
def cCppSeccompRules : M Int := _cCppSeccompRules false
/-- c_cpp_file_io.c:5-7. -/
def cCppFileIoSeccompRules : M Int := _cCppSeccompRules true
/-- general.c:11-59. -/
def generalSeccompRules : M Int := do
  let e ← getEnv
  loadRules .allow (generalRules e.exeAddr e.hasExecveat)
/-- golang.c:11-51. -/
def golangSeccompRules : M Int := do
  let e ← getEnv
  loadRules .allow (golangRules e.hasExecveat)
/-- node.c:11-36. -/
def nodeSeccompRules : M Int := do
  let e ← getEnv
  loadRules .allow (nodeRules e.hasExecveat)

/-- child.c:141-170, the chain of `strcmp`s; an unknown name is treated as a failure. -/
def namedRules (name : CStr) : M Int :=
  if name = c!"c_cpp" then cCppSeccompRules
  else if name = c!"c_cpp_file_io" then cCppFileIoSeccompRules
  else if name = c!"general" then generalSeccompRules
  else if name = c!"golang" then golangSeccompRules
  else if name = c!"node" then nodeSeccompRules
  else return LOAD_SECCOMP_FAILED

/-- child.c:140-171. -/
def seccompStep (c : Config) (input output error : Option File) : M Unit := do
  match c.seccompRuleName with
  | none => return ()
  | some name =>
    if (← namedRules name) ≠ SUCCESS then
      childErrorExit c!"LOAD_SECCOMP_FAILED" input output error

/-- child.c:34-175 `child_process`.  Its result type says how it could return to `run()`: with a value. -/
def childProcess (c : Config) : M Unit := do
  limitStep .stack (c.maxStack ≠ UNLIMITED) (castU64 c.maxStack)
  limitStep .as (c.memoryLimitCheckOnly = 0 ∧ c.maxMemory ≠ UNLIMITED) (castU64 (castU64 c.maxMemory * 2))
  cpuStep c
  limitStep .nproc (c.maxProcessNumber ≠ UNLIMITED) (castU64 c.maxProcessNumber)
  limitStep .fsize (c.maxOutputSize ≠ UNLIMITED) (castU64 c.maxOutputSize)
  let input ← inputStep c
  let output ← outputStep c input
  let error ← errorStep c input output
  gidStep c input output error
  uidStep c input output error
  seccompStep c input output error
  execve c.exePath c.args c.env                             -- child.c:173
  childErrorExit c!"EXECVE_FAILED" input output error                          -- child.c:174

end Judger
