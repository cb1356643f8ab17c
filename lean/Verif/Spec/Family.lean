import Verif.Model.Seccomp

/-!
# The judged program and the processes it starts

Written from fork(2), wait(2), getrusage(2) and seccomp(2); nothing of the code is used.  What wait4 reports about a process is its own user time
and that of the descendants it waited for.  A process whose parent has ended is waited for by init, and its time is then reported to nobody of
the family.
-/

set_option autoImplicit false

namespace Judger.Spec

/-- A process of the family; times are user times in microseconds. -/
structure Member where
  pid : Nat
  parent : Nat
  /-- it has not ended -/
  running : Bool
  own : Nat
  /-- time of the descendants waited for -/
  waited : Nat
  filters : List Filter

/-- What wait4 reports as user time of this process. -/
def Member.reported (m : Member) : Nat := m.own + m.waited

structure Family where
  members : List Member
  /-- user time spent by all processes so far -/
  spent : Nat

/-- Change the member with this pid. -/
def Family.update (F : Family) (pid : Nat) (f : Member → Member) : List Member := F.members.map fun x => if x.pid = pid then f x else x

/-- Remove the member with this pid. -/
def Family.without (F : Family) (pid : Nat) : List Member := F.members.filter fun x => x.pid != pid

/-- Everything the judged program and its descendants can do; clone, fork, vfork and clone3 have to pass the filters. -/
inductive Lives : Family → Family → Prop
  | start (F : Family) : Lives F F
  | spends {F G : Family} (h : Lives F G) (m : Member) (n : Nat) (hm : m ∈ G.members) (hr : m.running = true) :
      Lives F ⟨G.update m.pid fun x => { x with own := x.own + n }, G.spent + n⟩
  | installs {F G : Family} (h : Lives F G) (m : Member) (f : Filter) (hm : m ∈ G.members) (hr : m.running = true) :
      Lives F { G with members := G.update m.pid fun x => { x with filters := f :: x.filters } }
  | forks {F G : Family} (h : Lives F G) (m : Member) (r : Req) (pid : Nat) (hm : m ∈ G.members) (hr : m.running = true)
      (hn : r.nr = 56 ∨ r.nr = 57 ∨ r.nr = 58 ∨ r.nr = 435) (ha : evalAll m.filters r = .allow) (hp : ∀ x ∈ G.members, x.pid ≠ pid) :
      Lives F { G with members := G.members ++ [⟨pid, m.pid, true, 0, 0, m.filters⟩] }
  /-- by itself or by a signal -/
  | ends {F G : Family} (h : Lives F G) (m : Member) (hm : m ∈ G.members) :
      Lives F { G with members := G.update m.pid fun x => { x with running := false } }
  | waits {F G : Family} (h : Lives F G) (m d : Member) (hm : m ∈ G.members) (hd : d ∈ G.members) (hr : m.running = true)
      (he : d.running = false) (hp : d.parent = m.pid) (hne : d.pid ≠ m.pid) :
      Lives F { G with members := (Family.update ⟨G.without d.pid, G.spent⟩ m.pid fun x => { x with waited := x.waited + d.reported }) }
  /-- init waits for a process whose parent has ended -/
  | adopted {F G : Family} (h : Lives F G) (d : Member) (hd : d ∈ G.members) (he : d.running = false)
      (hp : ∀ x ∈ G.members, x.pid = d.parent → x.running = false) (hs : ∃ x ∈ G.members, x.pid ≠ d.pid ∧ x.pid = d.parent) :
      Lives F { G with members := G.without d.pid }

end Judger.Spec
