import Verif.Spec.Verdict

/-!
# `killer.c` and the interleavings of caller, watchdog thread and child

A transition system.  A step is one system call (or one access to shared memory) of the calling thread in `run()`
(runner.c:54-98), of the watchdog thread (killer.c:14-33), of the child, or the passing of time.  Any actor may move at any
moment.

Simplifications.  One clock, in microseconds, serves `gettimeofday` and `sleep`, and it never steps back.  `sleep(n)` returns
0 no earlier than `n` seconds after it was called.  SIGKILL takes effect at once.  The child is known by its pid; a pid that
has been reaped may belong to any other process.  `pthread_cancel` is deferred: it acts when the thread is in, or enters,
`sleep`, the only cancellation point of `timeout_killer`.  Storage of a block that has ended may hold any value, but for a pid
of 0 or below, by which `kill` would mean a group of processes.
-/

set_option autoImplicit false

namespace Judger

open Judger.Spec (Termination)

/-- What the watchdog system is started with: `max_real_time` (runner.c:68, 71), the pid `fork` returns, and whether the rare
failures of the watchdog's own calls (`pthread_detach` failing, `sleep` interrupted by a signal handler) may happen. -/
structure Watchdog where
  limit : Int
  pid : Nat
  quirks : Bool

/-- runner.c:68, 94: a timer is wanted. -/
def Watchdog.timed (k : Watchdog) : Prop := k.limit ≠ UNLIMITED

/-- The judged process. -/
inductive ChildState where
  | none
  | running
  | stopped (sig : Nat)
  /-- a zombie; `byTimer`: it died of the watchdog's SIGKILL -/
  | ended (t : Termination) (byTimer : Bool)
  | reaped
deriving Repr, DecidableEq

/-- How `run()` ended. -/
inductive Ret where
  | forkFailed
  | pthreadFailed
  | waitFailed
  | verdict (t : Termination) (byTimer : Bool)
deriving Repr, DecidableEq

/-- Where the calling thread is. -/
inductive MainPc where
  /-- before runner.c:54 -/
  | init
  /-- start time recorded, before runner.c:56 -/
  | started
  /-- in the parent, before runner.c:68 -/
  | forked
  /-- `pthread_create` returned 0, inside the block of `killer_args` (runner.c:69-77) -/
  | inBlock
  /-- before or in `wait4` (runner.c:85) -/
  | waiting
  /-- `wait4` returned (before runner.c:90) -/
  | waited (t : Termination) (byTimer : Bool)
  /-- end time recorded (before runner.c:94) -/
  | timed (t : Termination) (byTimer : Bool)
  /-- past runner.c:98, or returned through ERROR_EXIT -/
  | returned (r : Ret)
  /-- the calling process is gone, and its threads with it -/
  | exited (r : Ret)
deriving Repr, DecidableEq

/-- Where the watchdog thread is. -/
inductive Watch where
  | absent
  /-- before killer.c:16 -/
  | created
  /-- `pid` and `timeout` read (before killer.c:19) -/
  | ready (pid : Nat) (timeout : Int)
  /-- detached (before killer.c:25) -/
  | detached (pid : Nat) (timeout : Int)
  /-- in `sleep` until `wake` -/
  | asleep (pid : Nat) (wake : Nat)
  /-- before `kill_pid` (killer.c:20, 26 or 29) -/
  | awake (pid : Nat)
  | ended
  | cancelled
  /-- `timeout + 1000` overflowed -/
  | ub
deriving Repr, DecidableEq

/-- A SIGKILL sent by the watchdog. -/
structure Kill where
  time : Nat
  pid : Nat
  /-- the child had been reaped: the pid may be somebody else's -/
  afterReap : Bool
deriving Repr, DecidableEq

structure KState where
  now : Nat
  start : Nat
  finish : Nat
  main : MainPc
  watch : Watch
  child : ChildState
  cancelReq : Bool
  /-- the block holding `killer_args` has not ended -/
  argsAlive : Bool
  /-- SIGKILLs of the watchdog, newest first -/
  kills : List Kill
  /-- the watchdog read `killer_args` after their lifetime -/
  badRead : Bool
  /-- `pthread_cancel` was called with the id of a detached thread that had already terminated -/
  badCancel : Bool
deriving Repr, DecidableEq

def KState.init (now : Nat) : KState where
  now := now
  start := 0
  finish := 0
  main := .init
  watch := .absent
  child := .none
  cancelReq := false
  argsAlive := false
  kills := []
  badRead := false
  badCancel := false

/-- killer.c:9-11 `kill_pid(pid)` = `kill(pid, SIGKILL)` on the judged process, by the watchdog or not. -/
def killChild (k : Watchdog) (pid : Nat) (byTimer : Bool) : ChildState → ChildState
  | .running => if pid = k.pid then .ended (.signaled SIGKILL false) byTimer else .running
  | .stopped sig => if pid = k.pid then .ended (.signaled SIGKILL false) byTimer else .stopped sig
  | c => c

/-- killer.c:25 `(unsigned int)((timeout + 1000) / 1000)`, in seconds. -/
def sleepSeconds (timeout : Int) : CRes Nat :=
  match addInt timeout 1000 with
  | .ub => .ub
  | .ok x => .ok (castU32 (x.tdiv 1000)).toNat

/-- Who makes a step. -/
inductive Actor where
  | clock | main | watch | child
deriving Repr, DecidableEq

/-- One step. -/
inductive KStep (k : Watchdog) : Actor → KState → KState → Prop
  /-- time passes -/
  | tick (s : KState) (d : Nat) : KStep k .clock s { s with now := s.now + d }
  /-- runner.c:54 -/
  | recordStart (s : KState) (h : s.main = .init) : KStep k .main s { s with main := .started, start := s.now }
  /-- runner.c:56, 65 -/
  | forkOk (s : KState) (h : s.main = .started) : KStep k .main s { s with main := .forked, child := .running }
  /-- runner.c:59-61 -/
  | forkFails (s : KState) (h : s.main = .started) : KStep k .main s { s with main := .returned .forkFailed }
  /-- runner.c:68, no limit -/
  | skipTimer (s : KState) (h : s.main = .forked) (ht : ¬ k.timed) : KStep k .main s { s with main := .waiting }
  /-- runner.c:69-73 -/
  | createOk (s : KState) (h : s.main = .forked) (ht : k.timed) :
      KStep k .main s { s with main := .inBlock, watch := .created, argsAlive := true }
  /-- runner.c:73-76 -/
  | createFails (s : KState) (h : s.main = .forked) (ht : k.timed) :
      KStep k .main s { s with main := .returned .pthreadFailed, child := killChild k k.pid false s.child }
  /-- runner.c:77-78: the block that declares `killer_args` ends -/
  | leaveBlock (s : KState) (h : s.main = .inBlock) : KStep k .main s { s with main := .waiting, argsAlive := false }
  /-- runner.c:85: the child has ended; `wait4` reaps it -/
  | waitEnded (s : KState) (t : Termination) (b : Bool) (h : s.main = .waiting) (hc : s.child = .ended t b) :
      KStep k .main s { s with main := .waited t b, child := .reaped }
  /-- runner.c:85: the option WSTOPPED makes `wait4` report a stopped child -/
  | waitStopped (s : KState) (sig : Nat) (h : s.main = .waiting) (hc : s.child = .stopped sig) :
      KStep k .main s { s with main := .waited (.stopped sig) false }
  /-- runner.c:85-88 -/
  | waitFails (s : KState) (h : s.main = .waiting) :
      KStep k .main s { s with main := .returned .waitFailed, child := killChild k k.pid false s.child }
  /-- runner.c:90 -/
  | recordEnd (s : KState) (t : Termination) (b : Bool) (h : s.main = .waited t b) :
      KStep k .main s { s with main := .timed t b, finish := s.now }
  /-- runner.c:94-98 with a timer -/
  | cancel (s : KState) (t : Termination) (b : Bool) (h : s.main = .timed t b) (ht : k.timed) :
      KStep k .main s { s with main := .returned (.verdict t b), cancelReq := true,
                               badCancel := s.badCancel || decide (s.watch = .ended) }
  /-- runner.c:94 without -/
  | noCancel (s : KState) (t : Termination) (b : Bool) (h : s.main = .timed t b) (ht : ¬ k.timed) :
      KStep k .main s { s with main := .returned (.verdict t b) }
  /-- the caller of `run()` ends the process (main.c:187-191 returns from `main`), taking the watchdog along -/
  | exits (s : KState) (r : Ret) (h : s.main = .returned r) :
      KStep k .main s { s with main := .exited r, watch := .cancelled }
  /-- killer.c:16-17 while the block is alive -/
  | read (s : KState) (h : s.watch = .created) (ha : s.argsAlive = true) :
      KStep k .watch s { s with watch := .ready k.pid k.limit }
  /-- killer.c:16-17 after the block has ended: anything may be read -/
  | readDead (s : KState) (pid : Nat) (timeout : Int) (h : s.watch = .created) (ha : s.argsAlive = false) (hi : IsInt timeout) :
      KStep k .watch s { s with watch := .ready pid timeout, badRead := true }
  /-- killer.c:19 -/
  | detachOk (s : KState) (pid : Nat) (t : Int) (h : s.watch = .ready pid t) :
      KStep k .watch s { s with watch := .detached pid t }
  /-- killer.c:19-22 -/
  | detachFails (s : KState) (pid : Nat) (t : Int) (h : s.watch = .ready pid t) (hq : k.quirks = true) :
      KStep k .watch s { s with watch := .awake pid }
  /-- killer.c:25 -/
  | sleeps (s : KState) (pid : Nat) (t : Int) (n : Nat) (h : s.watch = .detached pid t) (hs : sleepSeconds t = .ok n) :
      KStep k .watch s { s with watch := .asleep pid (s.now + n * 1000000) }
  /-- killer.c:25, signed overflow -/
  | overflows (s : KState) (pid : Nat) (t : Int) (h : s.watch = .detached pid t) (hs : sleepSeconds t = .ub) :
      KStep k .watch s { s with watch := .ub }
  /-- killer.c:25 returns 0; a cancellation that comes first acts instead -/
  | wakes (s : KState) (pid : Nat) (w : Nat) (h : s.watch = .asleep pid w) (hw : w ≤ s.now) (hc : s.cancelReq = false) :
      KStep k .watch s { s with watch := .awake pid }
  /-- killer.c:25 returns the time left (killer.c:26) -/
  | interrupted (s : KState) (pid : Nat) (w : Nat) (h : s.watch = .asleep pid w) (hq : k.quirks = true)
      (hc : s.cancelReq = false) :
      KStep k .watch s { s with watch := .awake pid }
  /-- a pending cancellation acts in `sleep` -/
  | cancelled (s : KState) (pid : Nat) (w : Nat) (h : s.watch = .asleep pid w) (hc : s.cancelReq = true) :
      KStep k .watch s { s with watch := .cancelled }
  /-- killer.c:20, 26, 29, and the end of the thread -/
  | kill (s : KState) (pid : Nat) (h : s.watch = .awake pid) :
      KStep k .watch s { s with watch := .ended, child := killChild k pid true s.child,
                                kills := ⟨s.now, pid, decide (s.child = .reaped)⟩ :: s.kills }
  /-- the child exits or dies of a signal that is not the watchdog's -/
  | childEnds (s : KState) (t : Termination) (h : s.child = .running) (ht : t.Ended) :
      KStep k .child s { s with child := .ended t false }
  | childStops (s : KState) (sig : Nat) (h : s.child = .running) : KStep k .child s { s with child := .stopped sig }
  | childContinues (s : KState) (sig : Nat) (h : s.child = .stopped sig) : KStep k .child s { s with child := .running }

/-- The states of some schedule. -/
inductive Reach (k : Watchdog) : KState → Prop
  | init (now : Nat) : Reach k (KState.init now)
  | step {a : Actor} {s s' : KState} (h : Reach k s) (hs : KStep k a s s') : Reach k s'

/-- `s'` comes after `s` in some schedule. -/
inductive Later (k : Watchdog) (s : KState) : KState → Prop
  | refl : Later k s s
  | step {a : Actor} {s' s'' : KState} (h : Later k s s') (hs : KStep k a s' s'') : Later k s s''

/-- An infinite schedule: `act i` is who moves from `state i` to `state (i+1)`. -/
structure Schedule (k : Watchdog) where
  state : Nat → KState
  act : Nat → Actor
  first : Reach k (state 0)
  next : ∀ i, KStep k (act i) (state i) (state (i + 1))

end Judger
