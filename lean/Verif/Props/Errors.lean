import Verif.Spec.Errors
import Verif.Props.Runner
import Verif.Props.Logger

/-! # C90: how `run()` makes its own errors known -/

set_option autoImplicit false

namespace Judger

open Spec

/-- C90: a `run()` that returns an error has written exactly one line to the log, `Error: ` and the name of that error; if the
log cannot be written, it has written nothing there and one note to stderr saying why.  A `run()` that returns no error has
written no line and no such note. -/
theorem C90_error_told (c : Config) (prior : Result) (e : RunEnv) (r : Result) (effs : List Eff)
    (h : run c prior e = .returned r effs) :
    (r.error = 0 → logLines effs = [] ∧ lostLines effs = []) ∧
    (r.error ≠ 0 → logProblem e = none → logLines effs = [c!"Error: " ++ errorName r.error] ∧ lostLines effs = []) ∧
    (∀ why, r.error ≠ 0 → logProblem e = some why → logLines effs = [] ∧ lostLines effs = [why]) ∧
    (r.error = 0 ∨ r.error = -1 ∨ r.error = -2 ∨ r.error = -3 ∨ r.error = -4 ∨ r.error = -5) := by
  have hjs := (judgeStatus_error c e ⟨0, realTimeOf e.start e.finish, 0, 0, 0, 0, 0⟩).1
  rcases run_cases c prior e with ⟨_, hr⟩ | ⟨_, _, hr⟩ | ⟨_, _, _, hr⟩ | ⟨_, _, _, hr⟩ | ⟨pid, _, _, _, _, _, hr⟩ |
    ⟨pid, _, _, _, _, _, hr⟩ | ⟨pid, _, _, _, _, _, hr⟩
  all_goals
    (simp only [hr, RunOut.returned.injEq, reduceCtorEq] at h) <;> (obtain ⟨rfl, rfl⟩ := h)
  all_goals
    cases hl : e.logOpens <;> cases hk : e.logLocks <;> cases hw : e.logWrites <;> by_cases hu : c.maxRealTime = -1 <;>
      simp_all [logOpenEff, logWriteEff, logCloseEff, logLines, lostLines, logProblem, errorName]

/-- The same for the line itself: a `log_write` that cannot open, lock or write appends nothing and says why, in the words of
`logProblem`; any other one says nothing on stderr. -/
theorem C90_log_write (e : LogEnv) (level : Nat) (file : CStr) (line : Int) (msg : CStr) :
    (e.handle = false → logWrite e level file line msg = ⟨[], c!"can not open log file", false, false⟩) ∧
    (e.handle = true → e.lockOk = false → logWrite e level file line msg = ⟨[], c!"flock error", false, false⟩) ∧
    (e.handle = true → e.lockOk = true → e.write = none →
      (logWrite e level file line msg).appended = [] ∧ (logWrite e level file line msg).stderr = c!"write error" ∧
      ((logWrite e level file line msg).overRead = true ↔ 8192 < (logLine level file line e.date msg).length)) ∧
    (∀ n, e.handle = true → e.lockOk = true → e.write = some n → (logWrite e level file line msg).stderr = []) := by
  refine ⟨fun h => ?_, fun h1 h2 => ?_, fun h1 h2 h3 => ⟨?_, ?_, ?_⟩, fun n h1 h2 h3 => ?_⟩
  all_goals simp only [logWrite, *, Bool.true_eq_false, Bool.false_eq_true, if_true, if_false, logBufferSize]
  exact decide_eq_true_iff

/-- A run that is refused and logged, and one that is refused and cannot be logged. -/
example : ∃ r effs, run { sampleConfig with maxStack := 0 } (noResult 0) (sampleEnv 0) = .returned r effs ∧ r.error = -1 ∧
    logLines effs = [c!"Error: INVALID_CONFIG"] := ⟨_, _, rfl, rfl, rfl⟩
example : ∃ r effs, run sampleConfig (noResult 0) { sampleEnv 0 with fork := .failed, logLocks := false } = .returned r effs ∧
    r.error = -2 ∧ lostLines effs = [c!"flock error"] := ⟨_, _, rfl, rfl, rfl⟩

end Judger
