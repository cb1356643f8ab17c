import Verif.Spec.Child

/-!
# What a program can find out about the process it runs in

Written from getrlimit(2), getresuid(2), getgroups(2), fstat(2), sigaction(2), sigprocmask(2), prctl(2) and seccomp(2); nothing of the code is used.
-/

set_option autoImplicit false

namespace Judger.Spec

/-- The file description behind descriptor `n`. -/
def behind (p : Proc) (n : Nat) : Option OpenFile := (p.fds.get n).bind (p.ofds[·]?)

/-- What a program that has just been started can find out. -/
structure Surroundings where
  limits : Res → RLimit
  uid : Ids
  gid : Ids
  groups : List Int
  open_ : Nat → Option OpenFile
  noNewPrivs : Bool
  /-- what happens to a system call -/
  answers : Req → Action
  ignored : Nat → Bool
  blocked : Nat → Bool

def surroundings (p : Proc) : Surroundings where
  limits := p.limits
  uid := p.uid
  gid := p.gid
  groups := p.groups
  open_ := behind p
  noNewPrivs := p.noNewPrivs
  answers := evalAll p.filters
  ignored := p.ignored
  blocked := p.blocked

/-- Descriptors refer to file descriptions that exist. -/
def WellFormed (p : Proc) : Prop := ∀ n k, p.fds.get n = some k → k < p.ofds.length

/-- Two callers of run() that differ only in what the request `c` settles. -/
structure AlikeFor (c : Config) (p p' : Proc) : Prop where
  limits : ∀ r, wantedLimit c r = none → p.limits r = p'.limits r
  root : p.uid.e = 0 ∧ p'.uid.e = 0
  uid : c.uid = keepId → p.uid = p'.uid
  gid : c.gid = keepId → p.gid = p'.gid ∧ p.groups = p'.groups
  open_ : behind p = behind p'
  noNewPrivs : c.seccompRuleName = none → p.noNewPrivs = p'.noNewPrivs
  answers : evalAll p.filters = evalAll p'.filters
  ignored : p.ignored = p'.ignored
  blocked : p.blocked = p'.blocked

end Judger.Spec
