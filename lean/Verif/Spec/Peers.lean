import Verif.Spec.Kills
import Verif.Spec.Sandbox

/-!
# Who can look into another process, or change it

Written from ptrace(2) ("Ptrace access mode checking"), process_vm_readv(2), proc(5) (`/proc/<pid>/mem`), open(2), openat2(2), io_uring_setup(2) and pidfd_getfd(2);
nothing of the code is used.  Filters see numbers and not names, so whatever opens files opens `/proc/<pid>/mem`.  Left out: security modules such as Yama that
restrict ptrace further, and processes that have made themselves undumpable.
-/

set_option autoImplicit false

namespace Judger.Spec

/-- The ids of a process: of users and of groups. -/
structure Peer where
  uid : Ids
  gid : Ids

/-- ptrace(2): the caller is privileged, or its real or effective ids are all three ids of the target, for users and for groups. -/
def MayAttach (p : Proc) (t : Peer) : Prop :=
  p.privileged = true ∨
    ((t.uid = ⟨p.uid.r, p.uid.r, p.uid.r⟩ ∨ t.uid = ⟨p.uid.e, p.uid.e, p.uid.e⟩) ∧ (t.gid = ⟨p.gid.r, p.gid.r, p.gid.r⟩ ∨ t.gid = ⟨p.gid.e, p.gid.e, p.gid.e⟩))

/-- A call that can read the memory of another process: ptrace, process_vm_readv, io_uring_setup, openat2, pidfd_getfd, and open and openat other than for writing only. -/
def Looks (r : Req) : Prop :=
  r.nr ∈ [101, 310, 425, 437, 438] ∨ (r.nr = 2 ∧ accessMode (r.args 1) ≠ 1) ∨ (r.nr = 257 ∧ accessMode (r.args 2) ≠ 1)

/-- A call that can change the memory of another process: ptrace, process_vm_writev, io_uring_setup, openat2, pidfd_getfd, creat, and open and openat other than for reading. -/
def Changes (r : Req) : Prop :=
  r.nr ∈ [101, 311, 425, 437, 438, 85] ∨ (r.nr = 2 ∧ accessMode (r.args 1) ≠ 0) ∨ (r.nr = 257 ∧ accessMode (r.args 2) ≠ 0)

/-- Some process of the program can do it to a process with these ids. -/
def CanDo (what : Req → Prop) (s : Scene) (t : Peer) : Prop :=
  ∃ p ∈ s.procs, ∃ r : Req, (r.native = false ∨ what r) ∧ evalAll p.filters r = .allow ∧ MayAttach p t

end Judger.Spec
