import Verif.Spec.Starved
import Verif.Spec.Signals

/-!
# A program that uses its stack

Written from setrlimit(2) (RLIMIT_STACK, RLIMIT_AS), sigaltstack(2), sigaction(2) and signal(7).  The stack grows by itself when it is used.  Where a limit does not let
it grow, the program gets SIGSEGV; this ends it even if it ignores or blocks the signal, and leaves it running only if it has a handler for it and an alternate stack
on which the handler can run.  In pages of 4096 bytes.  Left out: a program that changes its own limits, and mappings that the program places below its stack.
-/

set_option autoImplicit false

namespace Judger.Spec

/-- The stack was to grow and could not: the pages of the address space and of the stack at that time, and the pages wanted. -/
structure Overflow where
  space : Nat
  stack : Nat
  wanted : Nat
deriving Repr, DecidableEq

/-- A program and its stack, which is a part of its address space. -/
structure Climber where
  filters : List Filter
  asLimit : Int
  stackLimit : Int
  space : Nat
  stack : Nat
  /-- a handler for SIGSEGV is set -/
  handled : Bool
  /-- for it an alternate stack is set -/
  altStack : Bool
  overflows : List Overflow
  ended : Option Termination

/-- The program that a process in state `q` has become by `execve`: handlers and alternate stacks are gone. -/
def Climber.start (q : Proc) (space stack : Nat) : Climber where
  filters := q.filters
  asLimit := (q.limits .as).cur
  stackLimit := (q.limits .stack).cur
  space := space
  stack := stack
  handled := false
  altStack := false
  overflows := []
  ended := none

/-- The stack can grow by `n` pages. -/
def Climber.CanGrow (x : Climber) (n : Nat) : Prop := Fits x.stackLimit (x.stack + n) ∧ Fits x.asLimit (x.space + n)

/-- A call that the filters let through.  Any call may also fail, or do what does not matter here. -/
inductive ClimberCall : Req → Climber → Climber → Prop
  | plain (r : Req) (x : Climber) : ClimberCall r x x
  /-- mmap, brk, mremap -/
  | maps (r : Req) (x : Climber) (n : Nat) (hr : r.nr = 9 ∨ r.nr = 12 ∨ r.nr = 25) (hn : Fits x.asLimit (x.space + n)) :
      ClimberCall r x { x with space := x.space + n }
  /-- munmap, brk, mremap -/
  | unmaps (r : Req) (x : Climber) (n : Nat) (hr : r.nr = 11 ∨ r.nr = 12 ∨ r.nr = 25) (hn : x.stack ≤ n) (hs : n ≤ x.space) :
      ClimberCall r x { x with space := n }
  /-- rt_sigaction -/
  | handles (r : Req) (x : Climber) (b : Bool) (hr : r.nr = 13) : ClimberCall r x { x with handled := b }
  /-- sigaltstack -/
  | alternates (r : Req) (x : Climber) (b : Bool) (hr : r.nr = 131) : ClimberCall r x { x with altStack := b }
  /-- prctl, seccomp -/
  | installs (r : Req) (x : Climber) (f : Filter) (hr : r.nr = 157 ∨ r.nr = 317) : ClimberCall r x { x with filters := f :: x.filters }
  /-- execve, execveat -/
  | execs (r : Req) (x : Climber) (space stack : Nat) (hr : r.nr = 59 ∨ r.nr = 322) (hs : stack ≤ space) :
      ClimberCall r x { x with space := space, stack := stack, handled := false, altStack := false }
  /-- exit, exit_group -/
  | exits (r : Req) (x : Climber) (code : Nat) (hr : r.nr = 60 ∨ r.nr = 231) (hc : code < 256) : ClimberCall r x { x with ended := some (.exited code) }

/-- What a program can do until it ends. -/
inductive Climbs : Climber → Climber → Prop
  | start (x : Climber) : Climbs x x
  | call {x y z : Climber} (h : Climbs x y) (he : y.ended = none) (r : Req) (ha : evalAll y.filters r = .allow) (hk : ClimberCall r y z) : Climbs x z
  | grows {x y : Climber} (h : Climbs x y) (he : y.ended = none) (n : Nat) (hn : y.CanGrow n) :
      Climbs x { y with space := y.space + n, stack := y.stack + n }
  | overflows {x y : Climber} (h : Climbs x y) (he : y.ended = none) (n : Nat) (core : Bool) (hn : ¬y.CanGrow n) :
      Climbs x { y with
        overflows := ⟨y.space, y.stack, n⟩ :: y.overflows
        ended := if y.handled && y.altStack then none else some (.signaled 11 core) }
  /-- it crashes otherwise, or somebody ends it -/
  | dies {x y : Climber} (h : Climbs x y) (he : y.ended = none) (sig : Nat) (core : Bool) : Climbs x { y with ended := some (.signaled sig core) }

end Judger.Spec
