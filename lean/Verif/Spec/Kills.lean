import Verif.Spec.Life

/-!
# Who can send a signal to whom

Written from kill(2), tgkill(2), rt_sigqueueinfo(2), pidfd_send_signal(2), fcntl(2) and seccomp(2); nothing of the code is used.  SIGCONT, which may be sent within
a session, is left out.
-/

set_option autoImplicit false

namespace Judger.Spec

/-- kill, fcntl (F_SETOWN), rt_sigqueueinfo, tkill, tgkill, rt_tgsigqueueinfo, pidfd_send_signal -/
def signalCalls : List Nat := [62, 72, 129, 200, 234, 297, 424]

/-- kill(2): the sender is privileged, or its real or effective user is the real or saved user of the target. -/
def MaySignal (p : Proc) (target : Ids) : Prop :=
  p.privileged = true ∨ p.uid.r = target.r ∨ p.uid.r = target.s ∨ p.uid.e = target.r ∨ p.uid.e = target.s

/-- A process of the program can send a signal to a process with these user ids. -/
def CanSignal (s : Scene) (target : Ids) : Prop :=
  ∃ p ∈ s.procs, ∃ r : Req, (r.native = false ∨ r.nr ∈ signalCalls) ∧ evalAll p.filters r = .allow ∧ MaySignal p target

end Judger.Spec
