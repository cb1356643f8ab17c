import Verif.Model.Kernel

/-!
# Who keeps a pipe open

Written from pipe(7), fork(2), execve(2), unix(7), seccomp(2) and wait(2); nothing of the code is used.  A reader of a pipe sees its end when no
process has a descriptor any more that the pipe can be written through.  An anonymous pipe has no name of its own: a process comes to it
by inheriting it, by getting it from a process that has it, or through a path that leads to a descriptor it has already (`/dev/stdout`).
-/

set_option autoImplicit false

namespace Judger.Spec

/-- A process that exists, running or stopped. -/
structure Holder where
  pid : Nat
  /-- the files (or pipes) it has a writable descriptor on -/
  files : Nat → Prop
  filters : List Filter

/-- Everything that the processes of a program can do about descriptors; clone, fork, vfork and clone3 have to pass the filters. -/
inductive Carries (pipes : List Nat) : List Holder → List Holder → Prop
  | start (F : List Holder) : Carries pipes F F
  | opens {F : List Holder} (a b : List Holder) (x : Holder) (f : Nat) (h : Carries pipes F (a ++ x :: b)) (hf : f ∉ pipes) :
      Carries pipes F (a ++ { x with files := fun g => g = f ∨ x.files g } :: b)
  | closes {F : List Holder} (a b : List Holder) (x : Holder) (fs : Nat → Prop) (h : Carries pipes F (a ++ x :: b)) (hf : ∀ f, fs f → x.files f) :
      Carries pipes F (a ++ { x with files := fs } :: b)
  /-- a descriptor is sent through a socket -/
  | passes {F : List Holder} (a b : List Holder) (x y : Holder) (f : Nat) (h : Carries pipes F (a ++ x :: b)) (hy : y ∈ a ++ x :: b)
      (hf : y.files f) : Carries pipes F (a ++ { x with files := fun g => g = f ∨ x.files g } :: b)
  | installs {F : List Holder} (a b : List Holder) (x : Holder) (f : Filter) (h : Carries pipes F (a ++ x :: b)) :
      Carries pipes F (a ++ { x with filters := f :: x.filters } :: b)
  | forks {F G : List Holder} (h : Carries pipes F G) (x : Holder) (r : Req) (pid : Nat) (hx : x ∈ G)
      (hn : r.nr = 56 ∨ r.nr = 57 ∨ r.nr = 58 ∨ r.nr = 435) (ha : evalAll x.filters r = .allow) (hp : ∀ y ∈ G, y.pid ≠ pid) :
      Carries pipes F (G ++ [⟨pid, x.files, x.filters⟩])
  /-- by itself or by a signal -/
  | ends {F : List Holder} (a b : List Holder) (x : Holder) (h : Carries pipes F (a ++ x :: b)) : Carries pipes F (a ++ b)

/-- What a process with the state `q` has writable descriptors on: `inherited` says what the open file descriptions are on that were there before
(the first `old` ones), `names` what the paths of the others lead to. -/
def HasOpen (names : CStr → Nat) (inherited : Nat → Nat) (old : Nat) (q : Proc) (f : Nat) : Prop :=
  ∃ fd k o, q.fds.get fd = some k ∧ q.ofds[k]? = some o ∧ o.writable = true ∧ f = if k < old then inherited k else names o.path

/-- The reader of each of these pipes sees its end as soon as the judger has ended too. -/
def AtEnd (pipes : List Nat) (G : List Holder) : Prop := ∀ f ∈ pipes, ∀ x ∈ G, ¬x.files f

/-- The forked judger: its descriptors lead to open files, and none but its standard output and error to one of the pipes. -/
structure OnPipes (inherited : Nat → Nat) (pipes : List Nat) (p : Proc) : Prop where
  known : ∀ fd k, p.fds.get fd = some k → k < p.ofds.length
  others : ∀ fd k, p.fds.get fd = some k → fd ≠ 1 → fd ≠ 2 → inherited k ∉ pipes

end Judger.Spec
