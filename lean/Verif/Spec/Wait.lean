import Verif.Spec.Verdict

/-!
# Waiting for a child while signals arrive

Written from wait(2), sigaction(2), signal(7) and execve(2); nothing of the code is used.  One thread of a process calls `wait4` for one child, asking also
for stopped children, and calls it once.  Meanwhile the child runs, stops, continues and ends, signals arrive at that thread, and other threads may wait for
children as well.  A signal whose action is to end the process is left out: then nothing is returned at all.
-/

set_option autoImplicit false

namespace Judger.Spec

/-- What a process has arranged for a signal.  A handler may have been set with SA_RESTART, and may itself wait for any children that have ended. -/
inductive SigAction where
  | default
  | ignore
  | handler (restart reaps : Bool)
deriving Repr, DecidableEq

/-- The arrangements of the waiting process; SIGCHLD is 17. -/
structure Arrangements where
  action : Nat → SigAction
  blocked : Nat → Bool
  /-- SA_NOCLDWAIT is set for SIGCHLD -/
  noCldWait : Bool
  /-- another thread waits for whatever child ends -/
  othersWait : Bool

/-- A child that ends remains until it has been waited for. -/
def Arrangements.keepsChildren (a : Arrangements) : Prop := a.action 17 ≠ .ignore ∧ a.noCldWait = false

/-- execve: handlers and flags are gone, ignored and blocked signals stay so, other threads have ended. -/
def Arrangements.afterExec (a : Arrangements) : Arrangements where
  action s := if a.action s = .ignore then .ignore else .default
  blocked := a.blocked
  noCldWait := false
  othersWait := false

/-- The child as `wait4` sees it. -/
inductive ChildIs where
  | running
  | stopped (sig : Nat)
  | ended (t : Termination)
  | gone
deriving Repr, DecidableEq

/-- Where the waiting thread is: not in `wait4` (yet, or while a handler runs before the call is restarted), in it, or back from it, with what it
reported or with an error. -/
inductive Place where
  | outside
  | inside
  | back (got : Option Termination)
deriving Repr, DecidableEq

/-- All of it. -/
structure WaitState where
  child : ChildIs
  /-- how the child last changed its state -/
  did : Option Termination
  pending : Nat → Bool
  place : Place

/-- Just after fork. -/
def WaitState.start : WaitState := ⟨.running, none, fun _ => false, .outside⟩

/-- `wait4` would find something. -/
def ChildIs.Waitable : ChildIs → Prop
  | .stopped _ => True
  | .ended _ => True
  | _ => False

/-- What is left after somebody has waited for whatever has ended. -/
def ChildIs.reaped : ChildIs → ChildIs
  | .ended _ => .gone
  | c => c

/-- A signal is now pending. -/
def withPending (p : Nat → Bool) (sig : Nat) (v : Bool) : Nat → Bool := fun s => if s = sig then v else p s

/-- One step. -/
inductive WaitStep (a : Arrangements) : WaitState → WaitState → Prop
  /-- the child ends -/
  | ends (w : WaitState) (t : Termination) (hc : w.child = .running ∨ ∃ s, w.child = .stopped s) (hv : t.Valid) (ht : t.Ended) (kept : Bool)
      (hk : kept = true ↔ a.keepsChildren) :
      WaitStep a w { w with child := if kept then .ended t else .gone, did := some t, pending := withPending w.pending 17 true }
  | stops (w : WaitState) (sig : Nat) (hc : w.child = .running) (hv : (Termination.stopped sig).Valid) (notify : Bool) :
      WaitStep a w { w with child := .stopped sig, did := some (.stopped sig), pending := withPending w.pending 17 (notify || w.pending 17) }
  | continues (w : WaitState) (s : Nat) (hc : w.child = .stopped s) : WaitStep a w { w with child := .running, did := none }
  /-- a signal arrives -/
  | arrives (w : WaitState) (sig : Nat) : WaitStep a w { w with pending := withPending w.pending sig true }
  /-- a handler runs -/
  | handles (w : WaitState) (sig : Nat) (restart reaps : Bool) (hp : w.place = .outside) (hs : w.pending sig = true) (hb : a.blocked sig = false)
      (ha : a.action sig = .handler restart reaps) :
      WaitStep a w { w with child := if reaps then w.child.reaped else w.child, pending := withPending w.pending sig false }
  /-- another thread waits for what has ended -/
  | otherCollects (w : WaitState) (ho : a.othersWait = true) : WaitStep a w { w with child := w.child.reaped }
  | enters (w : WaitState) (hp : w.place = .outside) : WaitStep a w { w with place := .inside }
  | collectsStopped (w : WaitState) (s : Nat) (hp : w.place = .inside) (hc : w.child = .stopped s) :
      WaitStep a w { w with place := .back (some (.stopped s)) }
  | collectsEnded (w : WaitState) (t : Termination) (hp : w.place = .inside) (hc : w.child = .ended t) :
      WaitStep a w { w with child := .gone, place := .back (some t) }
  /-- ECHILD -/
  | noChild (w : WaitState) (hp : w.place = .inside) (hc : w.child = .gone) : WaitStep a w { w with place := .back none }
  /-- a handler set with SA_RESTART: the call is left for it and made again -/
  | leaves (w : WaitState) (sig : Nat) (reaps : Bool) (hp : w.place = .inside) (hc : ¬ w.child.Waitable) (hs : w.pending sig = true)
      (hb : a.blocked sig = false) (ha : a.action sig = .handler true reaps) : WaitStep a w { w with place := .outside }
  /-- a handler set without: EINTR -/
  | interrupted (w : WaitState) (sig : Nat) (reaps : Bool) (hp : w.place = .inside) (hc : ¬ w.child.Waitable) (hs : w.pending sig = true)
      (hb : a.blocked sig = false) (ha : a.action sig = .handler false reaps) : WaitStep a w { w with place := .back none }

/-- Everything that can happen from fork until `wait4` returns. -/
inductive Awaits (a : Arrangements) : WaitState → Prop
  | start : Awaits a .start
  | step {w w' : WaitState} (h : Awaits a w) (hn : ∀ x, w.place ≠ .back x) (hs : WaitStep a w w') : Awaits a w'

/-- Nothing in the caller gets in the way of waiting: children are kept until they are waited for, nobody else waits for them, and a signal that can be
delivered is not handled, or handled with SA_RESTART. -/
structure Unhindered (a : Arrangements) : Prop where
  keeps : a.keepsChildren
  alone : a.othersWait = false
  handlers : ∀ s restart reaps, a.blocked s = false → a.action s = .handler restart reaps → restart = true ∧ reaps = false

end Judger.Spec
