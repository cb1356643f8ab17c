import Verif.Model.Kernel

/-!
# What ends up on the judger's standard output

`/dev/stdout` names what descriptor 1 refers to (proc(5)).  Opening it gives a new open file description: of a pipe or terminal, a second
way into the same stream of bytes; of a regular file, a description with its own position, 0 (open(2)), and with `O_TRUNC` the file is
emptied.  A regular file is written at the position of the description used, or at its end if that was opened with `O_APPEND` (write(2)); a
gap is filled with zero bytes (lseek(2)).  Written from the manual pages; nothing of the code is used.
-/

set_option autoImplicit false

namespace Judger.Spec

/-- What the caller connected the judger's descriptor 1 to. -/
inductive Sink where
  /-- a pipe or a terminal -/
  | stream
  /-- a regular file (`judger ... > file`) -/
  | file
  /-- a regular file opened for appending (`judger ... >> file`) -/
  | appended
deriving Repr, DecidableEq

/-- The judger's standard output when it starts: where it leads, what is already there, and the position of descriptor 1. -/
structure Console where
  sink : Sink
  text : CStr
  pos : Nat

/-- The contents of a file after writing `d` at position `off`; writing nothing changes nothing. -/
def overwrite (s : CStr) (off : Nat) (d : CStr) : CStr :=
  if d = [] then s else
  (s ++ List.replicate (off - s.length) (Char.ofNat 0)).take off ++ d ++ s.drop (off + d.length)

/-- What is there after `/dev/stdout` was opened as `f`. -/
def Console.opened (k : Console) (f : OpenFile) : CStr :=
  match k.sink with
  | .stream => k.text
  | .file | .appended => if f.truncated then [] else k.text

/-- What is there at the end: `f` is the description of `/dev/stdout` through which `out` was written from its beginning, after that `last`
was written to the judger's descriptor 1, and after that `late` through `f` again. -/
def Console.final (k : Console) (f : OpenFile) (out last late : CStr) : CStr :=
  match k.sink with
  | .stream => k.opened f ++ out ++ last ++ late
  | .file => overwrite (overwrite (overwrite (k.opened f) 0 out) k.pos last) out.length late
  | .appended => overwrite (overwrite (k.opened f) 0 out ++ last) out.length late

end Judger.Spec
