import Verif.Base.C

/-!
# A text in pieces, as a reader with a buffer gets it
-/

set_option autoImplicit false

namespace Judger.Spec.Pieces

/-- A piece ends with a newline, or is 254 characters long (`fgets` with the 255 bytes of judger.cc:185).  `cur` is what the current piece has so
far. -/
def closed (cur : CStr) : CStr → List CStr
  | [] => []
  | c :: r => if c = '\n' ∨ cur.length = 253 then (cur ++ [c]) :: closed [] r else closed (cur ++ [c]) r

/-- What follows the last piece that has ended. -/
def rest (cur : CStr) : CStr → CStr
  | [] => cur
  | c :: r => if c = '\n' ∨ cur.length = 253 then rest [] r else rest (cur ++ [c]) r

/-- A text up to its first NUL. -/
def upToNul : CStr → CStr
  | [] => []
  | c :: r => if c = '\x00' then [] else c :: upToNul r

/-- What is left of a text of which every piece loses its first NUL and what follows it. -/
def shown (out : CStr) : CStr := (closed [] out).flatMap upToNul ++ upToNul (rest [] out)

end Judger.Spec.Pieces
