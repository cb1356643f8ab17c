import Verif.Model.Kernel
import Verif.Model.Config

/-!
# Which files a judging opens

Written from the description of the options input_path, output_path and error_path (README) and fopen(3).
-/

set_option autoImplicit false

namespace Judger.Spec

/-- The files a request names for the standard streams, as they are to be opened: the input for reading; the output and the errors for writing, emptied; one
file for both when they have the same name. -/
def namedFiles (c : Config) : List OpenFile :=
  (match c.inputPath with
    | some i => [⟨i, true, false, false⟩]
    | none => []) ++
  (match c.outputPath with
    | some o => [⟨o, false, true, true⟩]
    | none => []) ++
  (match c.errorPath with
    | some r => if c.outputPath = some r then [] else [⟨r, false, true, true⟩]
    | none => [])

/-- The state in which it ended or went on. -/
def lastState {α : Type} : Step α → Proc
  | .ok _ p => p
  | .stop _ p => p

end Judger.Spec
