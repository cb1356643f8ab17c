import Verif.Spec.Verdict

/-! # How `run()` makes its own errors known -/

set_option autoImplicit false

namespace Judger.Spec

/-- The documented names of the error codes of `run()`. -/
def errorName (code : Int) : CStr :=
  if code = -1 then c!"INVALID_CONFIG"
  else if code = -2 then c!"FORK_FAILED"
  else if code = -3 then c!"PTHREAD_FAILED"
  else if code = -4 then c!"WAIT_FAILED"
  else if code = -5 then c!"ROOT_REQUIRED"
  else c!"?"

/-- The lines `run()` wrote to the log. -/
def logLines (effs : List Eff) : List CStr :=
  effs.filterMap fun | .logWrite m => some m | _ => none

/-- The notes on stderr about a line that could not be written. -/
def lostLines (effs : List Eff) : List CStr :=
  effs.filterMap fun | .stderrNote m => some m | _ => none

/-- Why no line can be written to the log, in the words used on stderr. -/
def logProblem (e : RunEnv) : Option CStr :=
  if e.logOpens = false then some c!"can not open log file"
  else if e.logLocks = false then some c!"flock error"
  else if e.logWrites = false then some c!"write error"
  else none

end Judger.Spec
