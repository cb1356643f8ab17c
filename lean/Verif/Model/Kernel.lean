import Verif.Model.Seccomp

/-!
# The process state that the child's calls act on

The calls of `child_process` are modelled as operations on the kernel-visible state of the process: resource limits,
credentials, descriptor table, installed filters.  Every system call first passes the installed filters.  Whether a call
that could fail does fail is decided by an arbitrary oracle (`ChildEnv.fails`), so every theorem covers every combination of
failures.
-/

set_option autoImplicit false

namespace Judger

/-- The resources child.c limits. -/
inductive Res where
  | stack | as | cpu | nproc | fsize
deriving Repr, DecidableEq

/-- `struct rlimit`. -/
structure RLimit where
  cur : Int
  max : Int
deriving Repr, DecidableEq

/-- Real, effective and saved id. -/
structure Ids where
  r : Int
  e : Int
  s : Int
deriving Repr, DecidableEq

/-- An open file description. -/
structure OpenFile where
  path : CStr
  readable : Bool
  writable : Bool
  /-- opening it emptied the file (`O_TRUNC`) -/
  truncated : Bool
deriving Repr, DecidableEq

/-- A `FILE *`: its identity and its descriptor (`fileno`). -/
structure File where
  id : Nat
  fd : Nat
deriving Repr, DecidableEq

/-- A descriptor table: entry `n` is the index of the open file description of descriptor `n`. -/
abbrev FdTable := List (Option Nat)

/-- What descriptor `n` refers to. -/
def FdTable.get (t : FdTable) (n : Nat) : Option Nat := (t[n]?).getD none

/-- Make descriptor `n` refer to `v`, extending the table if necessary. -/
def FdTable.set (t : FdTable) (n : Nat) (v : Option Nat) : FdTable :=
  if n < t.length then List.set t n v else t ++ List.replicate (n - t.length) none ++ [v]

/-- The lowest free descriptor (open(2)). -/
def FdTable.lowest (t : FdTable) : Nat := t.findIdx (·.isNone)

/-- The kernel-visible state of the forked child. -/
structure Proc where
  limits : Res → RLimit
  uid : Ids
  gid : Ids
  groups : List Int
  fds : FdTable
  ofds : List OpenFile
  /-- `FILE`s open in the C library -/
  files : List File
  nextFile : Nat
  /-- installed seccomp filters, newest first -/
  filters : List Filter
  noNewPrivs : Bool
  /-- `fclose` was called on a `FILE` that is not open (undefined behaviour) -/
  badClose : Bool
  /-- the messages this process has written to the log, newest first -/
  notes : List CStr
  /-- signals that are ignored (SIG_IGN); inherited through fork and kept by execve (signal(7)) -/
  ignored : Nat → Bool
  /-- the signal mask; inherited through fork and kept by execve -/
  blocked : Nat → Bool
  /-- the effective user and group id with which this process opened each of the files it opened, oldest first (credentials(7)) -/
  rights : List (Int × Int) := []

/-- The call sites of `child_process` that can fail. -/
inductive Site where
  | rlimit (r : Res)
  | openInput | dupInput
  | openOutput | dupOutput
  | openError | dupError
  | setgid | setgroups | setuid
  | scInit
  | scRule (k : Nat)
  | scLoad
  | exec
  | logLock | logWrite | logUnlock
deriving Repr, DecidableEq

/-- Everything about the outside world that `child_process` depends on. -/
structure ChildEnv where
  /-- this call fails although nothing in the modelled state forbids it (ENOENT, EMFILE, ENOMEM, ...) -/
  fails : Site → Bool
  /-- `log_fp`: NULL or an open FILE -/
  log : Option File
  /-- the log is a regular file, and its size -/
  logRegular : Bool
  logSize : Nat
  /-- a write of an error note to stderr kills the process (SIGPIPE, SIGXFSZ) with this signal -/
  stderrKills : Option Nat
  /-- the address of the string `_config->exe_path` -/
  exeAddr : BitVec 64
  /-- the address of any other buffer passed to a call -/
  bufAddr : BitVec 64
  /-- `__NR_execveat` is defined (general.c:15) -/
  hasExecveat : Bool
  /-- `strerror(errno)` where it is used (child.h:9) -/
  errnoText : CStr
  /-- at the fork (runner.c:56) another thread of the caller was in `localtime`: the copy of the C library in the child has the lock of the time zone
  taken, and the thread that would give it back is not there (fork(2)) -/
  clockHeld : Bool := false

/-- How the child stops running `child_process`. -/
inductive Stop where
  /-- terminated by a signal -/
  | killed (sig : Nat)
  /-- `exit(code)` -/
  | exited (code : Nat)
  /-- `execve` succeeded: the process now runs this program -/
  | execed (path : CStr) (argv envp : List CStr)
  /-- evaluation reached undefined behaviour (signed overflow) -/
  | ub
  /-- it waits for ever -/
  | hung
deriving Repr, DecidableEq

/-- Result of running a piece of `child_process`. -/
inductive Step (α : Type) where
  | ok (a : α) (p : Proc)
  | stop (s : Stop) (p : Proc)

/-- Programs of the child. -/
def M (α : Type) := ChildEnv → Proc → Step α

namespace M

def pure' {α} (a : α) : M α := fun _ p => .ok a p

def bind' {α β} (m : M α) (f : α → M β) : M β := fun e p =>
  match m e p with
  | .ok a p' => f a e p'
  | .stop s p' => .stop s p'

instance : Monad M where
  pure := pure'
  bind := bind'

def getEnv : M ChildEnv := fun e p => .ok e p
def getProc : M Proc := fun _ p => .ok p p
def modify (f : Proc → Proc) : M Unit := fun _ p => .ok () (f p)
def stopWith {α} (s : Stop) : M α := fun _ p => .stop s p

end M

open M

/-- Entry of a system call: the installed filters are consulted.  KILL ends the (single-threaded) child with SIGSYS; the
result says whether the call may go on (`false`: it returns -1 with the filter's errno). -/
def enter (r : Req) : M Bool := do
  let p ← getProc
  match evalAll p.filters r with
  | .kill => stopWith (.killed SIGSYS)
  | .errno _ => return false
  | .allow => return true

/-- A system call without modelled effect that always succeeds when let through. -/
def plain (nr : Nat) (args : List (BitVec 64)) : M Unit := do
  let _ ← enter (Req.mk' nr args)
  return ()

/-- A system call at a site where it may fail: succeeds when the filters and the oracle let it. -/
def attempt (s : Site) (r : Req) : M Bool := do
  let e ← getEnv
  let go ← enter r
  return go && !e.fails s

/-- The `int`/address argument of a request. -/
def argOf (x : Int) : BitVec 64 := BitVec.ofInt 64 x

/-- The numbers of the resources (`asm-generic/resource.h`). -/
def Res.code : Res → Int
  | .cpu => 0 | .fsize => 1 | .stack => 3 | .nproc => 6 | .as => 9

/-- Process is privileged: effective uid 0.  (Capabilities beyond the traditional root/non-root split are not modelled.) -/
def Proc.privileged (p : Proc) : Bool := p.uid.e == 0

/-- A signal with the default action "terminate" ends the process: it is neither ignored nor blocked.  (The judger installs no
handlers; those of a program that calls it as a library are not modelled.) -/
def Proc.deadly (p : Proc) (sig : Nat) : Bool := !p.ignored sig && !p.blocked sig

/-- `setrlimit(r, {v, v})` (glibc: prlimit64).  `v` is the value after conversion to `rlim_t`.  Raising a hard limit needs
privilege (setrlimit(2)). -/
def setrlimit (r : Res) (v : Int) : M Bool := do
  let e ← getEnv
  let ok ← attempt (.rlimit r) (Req.mk' NR_prlimit64 [0, argOf r.code, e.bufAddr, 0])
  let p ← getProc
  if ok && (p.privileged || decide (v ≤ (p.limits r).max)) then
    modify fun p => { p with limits := fun r' => if r' = r then ⟨v, v⟩ else p.limits r' }
    return true
  else
    return false

/-- `fopen(path, "r")` / `fopen(path, "w")` (`openat(AT_FDCWD, path, flags, 0666)`), without `O_CLOEXEC`. -/
def fopen (s : Site) (path : CStr) (write : Bool) : M (Option File) := do
  let e ← getEnv
  let flags := if write then O_WRONLY ||| O_CREAT ||| O_TRUNC else O_RDONLY
  let ok ← attempt s (Req.mk' NR_openat [argOf (-100), e.bufAddr, flags, 0o666])
  if ok then
    let p ← getProc
    let fd := p.fds.lowest
    let f : File := ⟨p.nextFile, fd⟩
    modify fun p => { p with
      fds := p.fds.set fd (some p.ofds.length)
      ofds := p.ofds ++ [⟨path, !write, write, write⟩]
      files := f :: p.files
      nextFile := p.nextFile + 1
      rights := p.rights ++ [(p.uid.e, p.gid.e)] }
    return some f
  else
    return none

/-- `dup2(old, new)`: fails if `old` is not open. -/
def dup2 (s : Site) (old new : Nat) : M Bool := do
  let ok ← attempt s (Req.mk' NR_dup2 [argOf old, argOf new])
  let p ← getProc
  if ok && (p.fds.get old).isSome then
    modify fun p => { p with fds := p.fds.set new (p.fds.get old) }
    return true
  else
    return false

/-- `fclose(f)`: `f` must be open; its descriptor is closed. -/
def fclose (f : File) : M Unit := do
  let p ← getProc
  if f ∈ p.files then
    let go ← enter (Req.mk' NR_close [argOf f.fd])
    modify fun p => { p with
      files := p.files.erase f
      fds := if go then p.fds.set f.fd none else p.fds }
  else
    modify fun p => { p with badClose := true }

/-- `setgid(g)`: a privileged process sets all three ids, another only the effective one, to its real or saved id. -/
def setgid (g : Int) : M Bool := do
  let ok ← attempt .setgid (Req.mk' NR_setgid [argOf g])
  let p ← getProc
  if ok && p.privileged then
    modify fun p => { p with gid := ⟨g, g, g⟩ }
    return true
  else if ok && (g == p.gid.r || g == p.gid.s) then
    modify fun p => { p with gid := { p.gid with e := g } }
    return true
  else
    return false

/-- `setgroups(n, list)`: privileged only. -/
def setgroups (gs : List Int) : M Bool := do
  let e ← getEnv
  let ok ← attempt .setgroups (Req.mk' NR_setgroups [argOf gs.length, e.bufAddr])
  let p ← getProc
  if ok && p.privileged then
    modify fun p => { p with groups := gs }
    return true
  else
    return false

/-- `setuid(u)`: a privileged process sets all three ids, another only the effective one, to its real or saved id. -/
def setuid (u : Int) : M Bool := do
  let ok ← attempt .setuid (Req.mk' NR_setuid [argOf u])
  let p ← getProc
  if ok && p.privileged then
    modify fun p => { p with uid := ⟨u, u, u⟩ }
    return true
  else if ok && (u == p.uid.r || u == p.uid.s) then
    modify fun p => { p with uid := { p.uid with e := u } }
    return true
  else
    return false

/-- `execve(path, argv, envp)`: on success it does not return. -/
def execve (path : CStr) (argv envp : List CStr) : M Unit := do
  let e ← getEnv
  let ok ← attempt .exec (Req.mk' NR_execve [e.exeAddr, e.bufAddr, e.bufAddr])
  if ok then stopWith (.execed path argv envp) else return ()

/-- A note on stderr (`fprintf(stderr, ...)`; stderr is unbuffered). -/
def noteStderr : M Unit := do
  let e ← getEnv
  let go ← enter (Req.mk' NR_write [2, e.bufAddr, 21])
  match go, e.stderrKills with
  | true, some sig => stopWith (.killed sig)
  | _, _ => return ()

end Judger
