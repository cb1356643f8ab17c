import Verif.Model.Kernel

/-!
# What reading and writing the standard streams does to files

Written from open(2), read(2), write(2) and lseek(2); nothing of the code is used.  A file is a number; `names` says which file each path names
(two paths may name one file, by a link or by `./`).  Every open file description has its own position.  The program is one that reads its
standard input and writes its standard output and error, and leaves their positions and sizes alone otherwise; the bytes of a write are those
the kernel took.  Nobody else uses these files meanwhile.
-/

set_option autoImplicit false

namespace Judger.Spec

/-- One call of the program: read at most `n` bytes of descriptor 0, or write to a descriptor. -/
inductive Io where
  | read (n : Nat)
  | write (fd : Nat) (bytes : CStr)
deriving Repr, DecidableEq

/-- The contents of the files, the positions of the open file descriptions, and what the program has read. -/
structure Store where
  content : Nat → CStr
  pos : Nat → Nat
  got : CStr

/-- Put `bytes` at position `k`: what was there is overwritten, a gap is filled with zeros. -/
def splice (old : CStr) (k : Nat) (bytes : CStr) : CStr :=
  old.take k ++ List.replicate (k - old.length) (Char.ofNat 0) ++ bytes ++ old.drop (k + bytes.length)

/-- The open file description of a descriptor, and its number. -/
def onFile (q : Proc) (fd : Nat) : Option (Nat × OpenFile) :=
  match q.fds.get fd with
  | none => none
  | some k => (q.ofds[k]?).map fun o => (k, o)

/-- One call. -/
def ioStep (names : CStr → Nat) (q : Proc) (s : Store) : Io → Store
  | .read n =>
    match onFile q 0 with
    | some (k, o) =>
      if o.readable then
        let bytes := ((s.content (names o.path)).drop (s.pos k)).take n
        { s with got := s.got ++ bytes, pos := fun j => if j = k then s.pos k + bytes.length else s.pos j }
      else s
    | none => s
  | .write fd bytes =>
    match onFile q fd with
    | some (k, o) =>
      if o.writable then
        { s with content := fun f => if f = names o.path then splice (s.content f) (s.pos k) bytes else s.content f
                 pos := fun j => if j = k then s.pos k + bytes.length else s.pos j }
      else s
    | none => s

/-- What opening these files does to the contents: those opened with O_TRUNC are emptied. -/
def emptied (names : CStr → Nat) (content : Nat → CStr) (opened : List OpenFile) : Nat → CStr :=
  opened.foldl (fun c o => if o.truncated then fun f => if f = names o.path then [] else c f else c) content

/-- The files when the program starts with the descriptors of `q`, of which the first `old` descriptions existed before: the others
have just been opened, and are at position 0. -/
def atStart (names : CStr → Nat) (content : Nat → CStr) (pos : Nat → Nat) (old : Nat) (q : Proc) : Store where
  content := emptied names content (q.ofds.drop old)
  pos := fun k => if old ≤ k then 0 else pos k
  got := []

/-- The files after the program has made these calls. -/
def play (names : CStr → Nat) (q : Proc) (s : Store) (l : List Io) : Store := l.foldl (ioStep names q) s

/-- Everything written to a descriptor, in order. -/
def written (fd : Nat) (l : List Io) : CStr :=
  l.flatMap fun | .write fd' bytes => if fd' = fd then bytes else [] | .read _ => []

/-- Everything written to either of two descriptors, in order. -/
def writtenEither (fd fd' : Nat) (l : List Io) : CStr :=
  l.flatMap fun | .write fd'' bytes => if fd'' = fd ∨ fd'' = fd' then bytes else [] | .read _ => []

/-- How many bytes the program asked for. -/
def asked (l : List Io) : Nat := (l.map fun | .read n => n | .write _ _ => 0).sum

/-- Only the standard streams are used. -/
def Standard (l : List Io) : Prop := ∀ fd bytes, Io.write fd bytes ∈ l → fd = 1 ∨ fd = 2

end Judger.Spec
