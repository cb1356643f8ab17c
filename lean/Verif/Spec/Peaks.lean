import Verif.Model.Seccomp

/-!
# The memory of the judged program and the processes it starts

Written from getrusage(2) (`ru_maxrss`), fork(2), wait(2) and seccomp(2); nothing of the code is used.  What wait4 reports as memory of a process is
the highest resident set of that process, or of one of the descendants it waited for: of single processes, never of several together.
Sizes are in KiB.
-/

set_option autoImplicit false

namespace Judger.Spec

structure Mate where
  pid : Nat
  parent : Nat
  /-- it has not ended -/
  running : Bool
  /-- what it has in memory now -/
  rss : Nat
  /-- the most it has had -/
  peak : Nat
  /-- the highest peak of the descendants waited for -/
  waited : Nat
  filters : List Filter

/-- What wait4 reports as `ru_maxrss` of this process. -/
def Mate.reported (m : Mate) : Nat := max m.peak m.waited

/-- What these processes have in memory together. -/
def held (ms : List Mate) : Nat := (ms.map Mate.rss).sum

structure Troop where
  mates : List Mate
  /-- the most that all of them have had together at one time -/
  most : Nat

/-- The program as it is started: it has `n` KiB. -/
def Troop.initial (pid judger n : Nat) (fs : List Filter) : Troop := ⟨[⟨pid, judger, true, n, n, 0, fs⟩], n⟩

/-- Everything the judged program and its descendants can do about their memory; clone, fork, vfork and clone3 have to pass the filters. -/
inductive Swells : Troop → Troop → Prop
  | start (T : Troop) : Swells T T
  /-- it takes or gives back memory -/
  | uses {S : Troop} (a b : List Mate) (x : Mate) (most n : Nat) (h : Swells S ⟨a ++ x :: b, most⟩) (hr : x.running = true) :
      Swells S ⟨a ++ { x with rss := n, peak := max x.peak n } :: b, max most (held (a ++ { x with rss := n, peak := max x.peak n } :: b))⟩
  | installs {S : Troop} (a b : List Mate) (x : Mate) (most : Nat) (f : Filter) (h : Swells S ⟨a ++ x :: b, most⟩) (hr : x.running = true) :
      Swells S ⟨a ++ { x with filters := f :: x.filters } :: b, most⟩
  /-- the new process has a part of its parent's memory in its own resident set -/
  | forks {S T : Troop} (h : Swells S T) (x : Mate) (r : Req) (pid n : Nat) (hx : x ∈ T.mates) (hr : x.running = true)
      (hn : r.nr = 56 ∨ r.nr = 57 ∨ r.nr = 58 ∨ r.nr = 435) (ha : evalAll x.filters r = .allow) (hp : ∀ y ∈ T.mates, y.pid ≠ pid) (hl : n ≤ x.rss) :
      Swells S ⟨T.mates ++ [⟨pid, x.pid, true, n, n, 0, x.filters⟩], max T.most (held (T.mates ++ [⟨pid, x.pid, true, n, n, 0, x.filters⟩]))⟩
  /-- by itself or by a signal -/
  | ends {S : Troop} (a b : List Mate) (x : Mate) (most : Nat) (h : Swells S ⟨a ++ x :: b, most⟩) :
      Swells S ⟨a ++ { x with running := false, rss := 0 } :: b, most⟩
  /-- `x` waits for its child `d` -/
  | waits {S T : Troop} (h : Swells S T) (a b : List Mate) (x d : Mate) (hT : T.mates.Perm (d :: (a ++ x :: b))) (hr : x.running = true) (he : d.running = false) (hd : d.parent = x.pid) :
      Swells S ⟨a ++ { x with waited := max x.waited d.reported } :: b, T.most⟩
  /-- init waits for a process whose parent has ended -/
  | adopted {S : Troop} (a b : List Mate) (d : Mate) (most : Nat) (h : Swells S ⟨a ++ d :: b, most⟩) (he : d.running = false)
      (hs : ∃ y ∈ a ++ b, y.pid = d.parent ∧ y.running = false) : Swells S ⟨a ++ b, most⟩

end Judger.Spec
