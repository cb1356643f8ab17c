import Verif.Spec.Life
import Verif.Spec.Rights
import Verif.Spec.Peers

/-!
# How a program comes to read a file

Written from open(2), openat2(2), open_by_handle_at(2), io_uring_setup(2), pidfd_getfd(2), chmod(2), chown(2) and credentials(7); nothing of the code is used.
The program opens the file anew; what it has open from the start (C22) is another matter, and so is what other programs tell it.  `open_by_handle_at` is left
out: it needs privilege, and so makes nobody read who could not.  The directories on the way are taken to be open to everybody.
-/

set_option autoImplicit false

namespace Judger.Spec

/-- As whom a process opens files. -/
def asWho (p : Proc) : Who := ⟨p.uid.e, p.gid.e, p.groups⟩

/-- The program, beginning with `s` and a file `i`, and what may become of both: chmod by root and by the owner; chown by root, and of the group by the owner. -/
inductive Pries (s : Scene) (i : Inode) : Scene → Inode → Prop
  | lives {t : Scene} (h : Life s t) : Pries s i t i
  | chmod {t : Scene} {j : Inode} (h : Pries s i t j) (p : Proc) (hp : p ∈ t.procs) (ha : (asWho p).mayChange j) (mode : Nat) : Pries s i t { j with mode := mode }
  | chown {t : Scene} {j : Inode} (h : Pries s i t j) (p : Proc) (hp : p ∈ t.procs) (ha : (asWho p).uid = 0) (o g : Int) : Pries s i t { j with owner := o, group := g }
  | chgrp {t : Scene} {j : Inode} (h : Pries s i t j) (p : Proc) (hp : p ∈ t.procs) (ha : (asWho p).mayChange j) (g : Int) : Pries s i t { j with group := g }
  /-- and the program lives on -/
  | then_ {t u : Scene} {j : Inode} (h : Pries s i t j) (hl : Life t u) : Pries s i u j

/-- Some process of the program can open the file for reading. -/
def CanOpen (t : Scene) (i : Inode) : Prop :=
  ∃ p ∈ t.procs, ∃ r : Req, (r.native = false ∨ Looks r) ∧ evalAll p.filters r = .allow ∧ (asWho p).mayRead i

end Judger.Spec
