import Verif.Spec.Cli
import Verif.Spec.Verdict

/-!
# Which configurations a command line can ask for

Written from the list of options; nothing of the parser is used.
-/

set_option autoImplicit false

namespace Judger.Spec

/-- A text that can be the value of an option: not empty, without NUL. -/
def Sendable (s : CStr) : Prop := s ≠ [] ∧ '\x00' ∉ s

/-- All texts of the configuration can be values of options, there is a file for each stream, the flag is 0 or 1, and the lists are not too long. -/
structure PlainTexts (c : Config) : Prop where
  exe : Sendable c.exePath
  input : ∃ t, c.inputPath = some t ∧ Sendable t
  output : ∃ t, c.outputPath = some t ∧ Sendable t
  error : ∃ t, c.errorPath = some t ∧ Sendable t
  log : Sendable c.logPath
  rules : ∀ t, c.seccompRuleName = some t → Sendable t
  args : ∃ as, as.length ≤ 255 ∧ (∀ s ∈ as, Sendable s) ∧ c.args = c.exePath :: (as ++ if as.length = 255 then c.env else [])
  env : c.env.length ≤ 255 ∧ ∀ s ∈ c.env, Sendable s
  flag : c.memoryLimitCheckOnly = 0 ∨ c.memoryLimitCheckOnly = 1

/-- What a command line can ask for: besides, every limit is an `int` (not a `long`). -/
structure Askable (c : Config) : Prop extends PlainTexts c where
  cpu : IsInt c.maxCpuTime
  real : IsInt c.maxRealTime
  mem : IsInt c.maxMemory
  stack : IsInt c.maxStack
  nproc : IsInt c.maxProcessNumber
  out : IsInt c.maxOutputSize
  uid : 0 ≤ c.uid ∧ c.uid < 4294967296
  gid : 0 ≤ c.gid ∧ c.gid < 4294967296

/-- A word that can be passed to a process. -/
def Passable (w : CStr) : Prop := '\x00' ∉ w

end Judger.Spec
