import Verif.Spec.Child

/-!
# What the log says about a child that could not start the program

Written from the English property.  The log is `Proc.notes`: the messages the child has written to it, newest first.
-/

set_option autoImplicit false

namespace Judger.Spec

/-- The stages of setting up the child: 1 limits, 2 files, 3 user and group, 4 system-call rules, 5 the program itself.
(Writing to the log is not part of the set-up.) -/
def stage : Site → Nat
  | .rlimit _ => 1
  | .openInput | .dupInput | .openOutput | .dupOutput | .openError | .dupError => 2
  | .setgid | .setgroups | .setuid => 3
  | .scInit | .scRule _ | .scLoad => 4
  | .exec => 5
  | .logLock | .logWrite | .logUnlock => 0

/-- The documented name of each stage's failure. -/
def stageCode : Nat → CStr
  | 1 => c!"SETRLIMIT_FAILED"
  | 2 => c!"DUP2_FAILED"
  | 3 => c!"SETUID_FAILED"
  | 4 => c!"LOAD_SECCOMP_FAILED"
  | 5 => c!"EXECVE_FAILED"
  | _ => []

/-- Some requested step of this stage fails; at stage 4 an unknown rule name counts as a failure. -/
def StageFails (c : Config) (e : ChildEnv) (k : Nat) : Prop :=
  (∃ s, Requested c e.hasExecveat s ∧ stage s = k ∧ e.fails s = true) ∨
  (k = 4 ∧ ∃ name, c.seccompRuleName = some name ∧ name ∉ profileNames)

/-- `k` is the first stage that fails. -/
def FirstFailure (c : Config) (e : ChildEnv) (k : Nat) : Prop :=
  StageFails c e k ∧ ∀ j, j < k → ¬ StageFails c e j

/-- The message for a failure in stage `k`: the system's error text and the name of the failure. -/
def failureNote (e : ChildEnv) (k : Nat) : CStr :=
  c!"Error: System errno: " ++ e.errnoText ++ c!"; Internal errno: " ++ stageCode k

/-- The log is open and writing to it works. -/
def LogUsable (e : ChildEnv) : Prop := e.log ≠ none ∧ e.fails .logLock = false ∧ e.fails .logWrite = false

/-- The child begins as root without system-call filters. -/
def FreshRoot (p : Proc) : Prop := p.uid.e = 0 ∧ p.filters = []

/-- The log file stays below the file-size limits, or is not a regular file. -/
def LogHasRoom (c : Config) (e : ChildEnv) (p : Proc) : Prop :=
  e.logRegular = false ∨
  ((e.logSize : Int) < (p.limits .fsize).cur ∧ (c.maxOutputSize = -1 ∨ (e.logSize : Int) < c.maxOutputSize))

end Judger.Spec
