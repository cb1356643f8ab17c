import Verif.Model.Child
import Verif.Spec.Verdict

/-!
# What may be relied on when the judged program starts

Written from the English properties; uses the data types of the model and, of its functions, only `childProcess` (the code
under study).
-/

set_option autoImplicit false

namespace Judger.Spec

/-- The program has been started: `child_process` replaced itself by a program, in process state `q`. -/
def Started (c : Config) (e : ChildEnv) (p q : Proc) : Prop :=
  ∃ path argv envp, childProcess c e p = .stop (.execed path argv envp) q

/-- The child died in `child_process`, or waits there for ever, in this way. -/
def Died (c : Config) (e : ChildEnv) (p : Proc) (s : Stop) (q : Proc) : Prop :=
  childProcess c e p = .stop s q ∧ (∀ path argv envp, s ≠ .execed path argv envp) ∧ s ≠ .ub

/-- The value documented for each limit; `none` means "leave alone". -/
def wantedLimit (c : Config) : Res → Option Int
  | .stack => some c.maxStack
  | .as => if c.memoryLimitCheckOnly ≠ 0 ∨ c.maxMemory = -1 then none else some (2 * c.maxMemory)
  | .cpu => if c.maxCpuTime = -1 then none else some (c.maxCpuTime / 1000 + 1)
  | .nproc => if c.maxProcessNumber = -1 then none else some c.maxProcessNumber
  | .fsize => if c.maxOutputSize = -1 then none else some c.maxOutputSize

/-- The kernel's "no limit" value, `RLIM_INFINITY`. -/
def infinity : Int := 18446744073709551615

/-- `(uid_t) -1`, "do not change". -/
def keepId : Int := 4294967295

/-- Number of rules of each profile. -/
def ruleCount (name : CStr) (hasExecveat : Bool) : Nat :=
  if name = c!"c_cpp" then 28
  else if name = c!"c_cpp_file_io" then 31
  else if name = c!"general" then (if hasExecveat then 11 else 10)
  else if name = c!"golang" then (if hasExecveat then 9 else 8)
  else if name = c!"node" then (if hasExecveat then 5 else 4)
  else 0

/-- The five profile names. -/
def profileNames : List CStr := [c!"c_cpp", c!"c_cpp_file_io", c!"general", c!"golang", c!"node"]

/-- The configuration asks for this step. -/
def Requested (c : Config) (hasExecveat : Bool) : Site → Prop
  | .rlimit r => (wantedLimit c r).isSome
  | .openInput | .dupInput => c.inputPath.isSome
  | .openOutput | .dupOutput => c.outputPath.isSome
  | .openError => c.errorPath.isSome ∧ c.outputPath ≠ c.errorPath
  | .dupError => c.errorPath.isSome
  | .setgid | .setgroups => c.gid ≠ keepId
  | .setuid => c.uid ≠ keepId
  | .scInit | .scLoad => c.seccompRuleName.isSome
  | .scRule k => ∃ name, c.seccompRuleName = some name ∧ k < ruleCount name hasExecveat
  | .exec => True
  | .logLock | .logWrite | .logUnlock => False

/-- Descriptor `fd` is open on a file description made since `old` descriptions existed, with these properties. -/
def StreamIs (q : Proc) (old : Nat) (fd : Nat) (f : OpenFile) : Prop :=
  ∃ k, old ≤ k ∧ q.fds.get fd = some k ∧ q.ofds[k]? = some f

/-- Every `FILE` has its own identity. -/
def FilesOk (p : Proc) : Prop := p.files.Nodup ∧ ∀ f ∈ p.files, f.id < p.nextFile

/-- How the parent sees the end of the child.  One that waits for ever ends by the SIGKILL of the watchdog. -/
def Reports : Stop → Termination → Prop
  | .killed sig, .signaled sig' _ => sig = sig'
  | .hung, .signaled sig _ => sig = 9
  | .exited code, .exited code' => code = code'
  | _, _ => False

end Judger.Spec
