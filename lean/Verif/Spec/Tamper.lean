import Verif.Spec.Secret

/-!
# How a program comes to change or remove a file

Written from open(2), creat(2), truncate(2), unlink(2), rename(2), io_uring_setup(2), pidfd_getfd(2), inode(7) (the sticky bit) and credentials(7); nothing of the
code is used.  As in `Spec/Secret`, what the program has open from the start is another matter, and the directories on the way are taken to be open.
-/

set_option autoImplicit false

namespace Judger.Spec

/-- A call that can change what is in a file: truncate, creat, io_uring_setup, openat2, pidfd_getfd, and open and openat other than for reading, or emptying. -/
def Alters (r : Req) : Prop :=
  r.nr ∈ [76, 85, 425, 437, 438] ∨ (r.nr = 2 ∧ (accessMode (r.args 1) ≠ 0 ∨ wantsTruncate (r.args 1) = true)) ∨
    (r.nr = 257 ∧ (accessMode (r.args 2) ≠ 0 ∨ wantsTruncate (r.args 2) = true))

/-- A call that can remove a file from its directory: rename, unlink, unlinkat, renameat, renameat2, io_uring_setup. -/
def Removes (r : Req) : Prop := r.nr ∈ [82, 87, 263, 264, 316, 425]

/-- Who may remove the file `i` from the directory `d`: whoever may write to it; with the sticky bit only root and the owners. -/
def Who.mayRemove (w : Who) (i d : Inode) : Prop :=
  w.mayWrite d ∧ (d.mode / 512 % 2 = 1 → w.uid = 0 ∨ w.uid = i.owner ∨ w.uid = d.owner)

/-- Some process of the program can change the file. -/
def CanAlter (t : Scene) (i : Inode) : Prop :=
  ∃ p ∈ t.procs, ∃ r : Req, (r.native = false ∨ Alters r) ∧ evalAll p.filters r = .allow ∧ (asWho p).mayWrite i

/-- Some process of the program can remove it from the directory. -/
def CanRemove (t : Scene) (i d : Inode) : Prop :=
  ∃ p ∈ t.procs, ∃ r : Req, (r.native = false ∨ Removes r) ∧ evalAll p.filters r = .allow ∧ (asWho p).mayRemove i d

end Judger.Spec
