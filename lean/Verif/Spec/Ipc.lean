import Verif.Model.Seccomp

/-!
# What a program can leave behind in the kernel

Written from sysvipc(7), shmget(2), semget(2), msgget(2), mq_overview(7), fork(2) and seccomp(2); nothing of the code is used.  A segment of
shared memory, a set of semaphores or a message queue is made by a call and stays, whoever ends, until it is removed by a call.  Calls through
another ABI (32 bit, x32) do the same under other numbers.  Files are left out, and so are the keys of keyctl(2).
-/

set_option autoImplicit false

namespace Judger.Spec

/-- shmget, semget, msgget, mq_open. -/
def ipcMakers : List Nat := [29, 64, 68, 240]

/-- The kernel is asked for one of these calls, by this or another ABI, and the filters let it pass. -/
def IpcPasses (fs : List Filter) (nrs : List Nat) (r : Req) : Prop := (r.native = false ∨ r.nr ∈ nrs) ∧ evalAll fs r = .allow

/-- The living processes of the program, by their filters, and the objects they have made that are still there, by the call that made them. -/
structure Estate where
  procs : List (List Filter)
  objects : List Nat

/-- Everything that bears on it.  `most`: how many such objects the kernel lets there be. -/
inductive Bequeaths (most : Nat) : Estate → Estate → Prop
  | start (e : Estate) : Bequeaths most e e
  | makes {e k : Estate} (h : Bequeaths most e k) (fs : List Filter) (hf : fs ∈ k.procs) (r : Req) (hp : IpcPasses fs ipcMakers r)
      (hr : k.objects.length < most) : Bequeaths most e { k with objects := r.nr :: k.objects }
  /-- removed by the program, or by anybody else -/
  | removed {e k : Estate} (h : Bequeaths most e k) (l : List Nat) (hl : l.Sublist k.objects) : Bequeaths most e { k with objects := l }
  | installs {e k : Estate} (h : Bequeaths most e k) (a b : List (List Filter)) (fs : List Filter) (f : Filter) (hk : k.procs = a ++ fs :: b) :
      Bequeaths most e { k with procs := a ++ (f :: fs) :: b }
  | forks {e k : Estate} (h : Bequeaths most e k) (fs : List Filter) (hf : fs ∈ k.procs) : Bequeaths most e { k with procs := k.procs ++ [fs] }
  /-- a process ends, in whatever way -/
  | ends {e k : Estate} (h : Bequeaths most e k) (a b : List (List Filter)) (fs : List Filter) (hk : k.procs = a ++ fs :: b) :
      Bequeaths most e { k with procs := a ++ b }

end Judger.Spec
