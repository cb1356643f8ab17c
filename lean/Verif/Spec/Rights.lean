import Verif.Model.Config

/-!
# Who may open a file

Written from credentials(7), inode(7), open(2) and umask(2); nothing of the code is used.
-/

set_option autoImplicit false

namespace Judger.Spec

/-- A file: owner, group, and the bits of its mode. -/
structure Inode where
  owner : Int
  group : Int
  mode : Nat
deriving Repr, DecidableEq

/-- Whoever opens a file: effective user and group id, and the supplementary groups. -/
structure Who where
  uid : Int
  gid : Int
  groups : List Int
deriving Repr, DecidableEq

/-- The three bits of the mode that count: those of the owner, of the group, or of the others. -/
def Who.bits (w : Who) (i : Inode) : Nat :=
  if w.uid = i.owner then i.mode / 64 % 8
  else if w.gid = i.group ∨ i.group ∈ w.groups then i.mode / 8 % 8
  else i.mode % 8

/-- May read: root, or the bit is set. -/
def Who.mayRead (w : Who) (i : Inode) : Prop := w.uid = 0 ∨ w.bits i / 4 % 2 = 1

/-- May write: root, or the bit is set. -/
def Who.mayWrite (w : Who) (i : Inode) : Prop := w.uid = 0 ∨ w.bits i / 2 % 2 = 1

/-- May change the mode or the owner: root, or (the mode) the owner. -/
def Who.mayChange (w : Who) (i : Inode) : Prop := w.uid = 0 ∨ w.uid = i.owner

/-- The file that `open` with mode 0666 makes, for this effective user and group and this umask (which takes bits away). -/
def made (by_ : Int × Int) (umask : Nat) : Inode := ⟨by_.1, by_.2, 0o666 &&& (0o777 ^^^ (umask &&& 0o777))⟩

end Judger.Spec
