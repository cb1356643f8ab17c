import Verif.Model.Seccomp
import Verif.Spec.Verdict

/-!
# Threads, processes and refused system calls

Written from seccomp(2), clone(2), exit(2) and exit_group(2); nothing of the code is used.  libseccomp's SCMP_ACT_KILL is SECCOMP_RET_KILL_THREAD: "the
thread is terminated"; if it was the last one of its process, the process is seen to die of SIGSYS.
-/

set_option autoImplicit false

namespace Judger.Spec

/-- A thread and the process it belongs to. -/
structure Task where
  pid : Nat
  filters : List Filter

/-- The judged program and everything it has started. -/
structure Band where
  tasks : List Task
  /-- processes that have ended, and how -/
  ended : List (Nat × Termination)
  /-- a system call was refused by killing its caller -/
  broke : Bool
  /-- a thread or process was started -/
  spawned : Bool

/-- The states that a program started as process `pid` under the filters `fs` can come to. -/
inductive Toils (pid : Nat) (fs : List Filter) : Band → Prop
  | start : Toils pid fs ⟨[⟨pid, fs⟩], [], false, false⟩
  /-- clone, fork, vfork, clone3: a thread of the same process, or a new process -/
  | spawns {B : Band} (h : Toils pid fs B) (x : Task) (r : Req) (pid' : Nat) (hx : x ∈ B.tasks)
      (hn : r.nr = 56 ∨ r.nr = 57 ∨ r.nr = 58 ∨ r.nr = 435) (ha : evalAll x.filters r = .allow)
      (hp : pid' = x.pid ∨ ((∀ y ∈ B.tasks, y.pid ≠ pid') ∧ ∀ y ∈ B.ended, y.1 ≠ pid')) :
      Toils pid fs { B with tasks := B.tasks ++ [⟨pid', x.filters⟩], spawned := true }
  | installs {B : Band} (h : Toils pid fs B) (a b : List Task) (x : Task) (f : Filter) (hx : B.tasks = a ++ x :: b) :
      Toils pid fs { B with tasks := a ++ { x with filters := f :: x.filters } :: b }
  /-- a refused call of one of several threads -/
  | refused {B : Band} (h : Toils pid fs B) (a b : List Task) (x : Task) (r : Req) (hx : B.tasks = a ++ x :: b)
      (hr : evalAll x.filters r = .kill) (ho : ∃ y ∈ a ++ b, y.pid = x.pid) :
      Toils pid fs { B with tasks := a ++ b, broke := true }
  /-- a refused call of the last thread -/
  | refusedLast {B : Band} (h : Toils pid fs B) (a b : List Task) (x : Task) (r : Req) (core : Bool) (hx : B.tasks = a ++ x :: b)
      (hr : evalAll x.filters r = .kill) (ho : ∀ y ∈ a ++ b, y.pid ≠ x.pid) :
      Toils pid fs { B with tasks := a ++ b, ended := (x.pid, .signaled 31 core) :: B.ended, broke := true }
  /-- exit in one of several threads -/
  | leaves {B : Band} (h : Toils pid fs B) (a b : List Task) (x : Task) (hx : B.tasks = a ++ x :: b) (ho : ∃ y ∈ a ++ b, y.pid = x.pid) :
      Toils pid fs { B with tasks := a ++ b }
  /-- exit_group, exit of the last thread, or death by a signal -/
  | ends {B : Band} (h : Toils pid fs B) (x : Task) (t : Termination) (hx : x ∈ B.tasks) (ht : t.Ended) :
      Toils pid fs { B with tasks := B.tasks.filter (·.pid != x.pid), ended := (x.pid, t) :: B.ended }

end Judger.Spec
