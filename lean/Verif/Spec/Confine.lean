import Verif.Model.Kernel

/-!
# A judger that is confined itself

Written from seccomp(2), and from what the C library asks of the kernel for fopen, dup2, fclose, setrlimit, setgid, setgroups, setuid, flock, fprintf,
raise, exit, execve and seccomp_load; nothing of the code is used.  A container or a service manager confines the judger with filters of its own.  The
children inherit them, and a call gets through only when all filters allow it.
-/

set_option autoImplicit false

namespace Judger.Spec

/-- The calls behind these functions: write, close, rt_sigprocmask, dup2, getpid, execve, flock, setuid, setgid, setgroups, prctl, gettid, exit_group,
tgkill, openat, prlimit64, seccomp. -/
def judgerCalls : List Nat := [1, 3, 14, 33, 39, 59, 73, 105, 106, 116, 157, 186, 231, 234, 257, 302, 317]

/-- The filters let the judger do its work, whatever else they refuse. -/
def LetsWork (outer : List Filter) : Prop := ∀ r : Req, r.native = true → r.nr ∈ judgerCalls → evalAll outer r = .allow

/-- A filter that kills whoever makes this call and allows all others. -/
def refusing (nr : Nat) : Filter := ⟨.allow, [⟨.kill, nr, []⟩]⟩

/-- The same process, confined. -/
def confined (outer : List Filter) (p : Proc) : Proc := { p with filters := p.filters ++ outer }

/-- The same outcome of a confined process. -/
def outcome {α : Type} (outer : List Filter) : Step α → Step α
  | .ok a p => .ok a (confined outer p)
  | .stop s p => .stop s (confined outer p)

/-- How it ended. -/
def ending {α : Type} : Step α → Option Stop
  | .ok _ _ => none
  | .stop s _ => some s

end Judger.Spec
