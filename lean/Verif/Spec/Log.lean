import Verif.Model.Logger

/-! # What may be relied on about the log file -/

set_option autoImplicit false

namespace Judger.Spec

/-- The names of the levels. -/
def levelName (level : Nat) : CStr :=
  if level = 0 then c!"FATAL" else if level = 1 then c!"WARNING" else if level = 2 then c!"INFO"
  else if level = 3 then c!"DEBUG" else []

/-- The documented line. -/
def logEntry (level : Nat) (file : CStr) (line : Int) (date msg : CStr) : CStr :=
  levelName level ++ c!" [" ++ date ++ c!"] [" ++ file ++ c!":" ++ showInt line ++ c!"]" ++ msg ++ c!"\n"

/-- The system calls of a `log_write` do what they should. -/
def LogEnv.Works (e : LogEnv) (size : Nat) : Prop :=
  e.handle = true ∧ e.lockOk = true ∧ e.write = some size ∧ e.unlockOk = true ∧ e.date.length ≤ 98

/-- The messages Judger itself logs (runner.h:15, child.h:13): "Error: <code>" and
"Error: System errno: <text>; Internal errno: <code>". -/
def ownMessage : CStr → Prop := fun m =>
  (∃ code : CStr, code.length ≤ 100 ∧ m = c!"Error: " ++ code) ∨
  (∃ text code : CStr, text.length ≤ 1000 ∧ code.length ≤ 100 ∧ m = c!"Error: System errno: " ++ text ++ c!"; Internal errno: " ++ code)

/-- The file, apart from what was there before: whole entries, then a part of the entry being written. -/
def WholeEntries (old : List Char) (w : LogWorld) : Prop :=
  (w.lock = none → w.file = old ++ w.finished.flatten) ∧
  ∃ entry sofar : List Char, sofar <+: entry ∧ w.file = old ++ w.finished.flatten ++ sofar

end Judger.Spec
