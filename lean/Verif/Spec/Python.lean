import Verif.Model.Python

/-!
# What a Python call asks for

`Request` is a well-typed call; `Request.wanted` is the configuration it describes.  `IllTyped` is the documented misuse.
-/

set_option autoImplicit false

namespace Judger.Spec.Python

open Judger.Py

/-- A well-typed call. -/
structure Request where
  maxCpuTime : Int
  maxRealTime : Int
  maxMemory : Int
  maxStack : Int
  maxOutputSize : Int
  maxProcessNumber : Int
  exePath : CStr
  inputPath : CStr
  outputPath : CStr
  errorPath : CStr
  args : List CStr
  env : List CStr
  logPath : CStr
  seccompRuleName : Option CStr
  uid : Int
  gid : Int
  memoryLimitCheckOnly : Int

/-- The Python values of its parameters. -/
def Request.call (q : Request) : Var → PyVal
  | .maxCpuTime => .int q.maxCpuTime
  | .maxRealTime => .int q.maxRealTime
  | .maxMemory => .int q.maxMemory
  | .maxStack => .int q.maxStack
  | .maxOutputSize => .int q.maxOutputSize
  | .maxProcessNumber => .int q.maxProcessNumber
  | .exePath => .str q.exePath
  | .inputPath => .str q.inputPath
  | .outputPath => .str q.outputPath
  | .errorPath => .str q.errorPath
  | .args => .list (q.args.map .str)
  | .env => .list (q.env.map .str)
  | .logPath => .str q.logPath
  | .seccompRuleName => q.seccompRuleName.elim .none .str
  | .uid => .int q.uid
  | .gid => .int q.gid
  | .memoryLimitCheckOnly => .int q.memoryLimitCheckOnly

/-- -1 stands for the default. -/
def orDefault (dflt n : Int) : Int := if n = -1 then dflt else n

/-- The configuration the call describes. -/
def Request.wanted (q : Request) : Config where
  maxCpuTime := q.maxCpuTime
  maxRealTime := q.maxRealTime
  maxMemory := q.maxMemory
  maxStack := orDefault 16777216 q.maxStack
  maxProcessNumber := q.maxProcessNumber
  maxOutputSize := q.maxOutputSize
  memoryLimitCheckOnly := if orDefault 0 q.memoryLimitCheckOnly = 0 then 0 else 1
  exePath := q.exePath
  inputPath := some q.inputPath
  outputPath := some q.outputPath
  errorPath := some q.errorPath
  args := q.exePath :: q.args
  env := q.env
  logPath := q.logPath
  seccompRuleName := if q.seccompRuleName = some [] then none else q.seccompRuleName
  uid := castU32 (orDefault 65534 q.uid)
  gid := castU32 (orDefault 65534 q.gid)

/-- Its integers are C ints, its strings can be passed to a process and are not empty, its lists are not longer than the judger
allows. -/
structure Request.Ok (q : Request) : Prop where
  ints : ∀ n ∈ [q.maxCpuTime, q.maxRealTime, q.maxMemory, q.maxStack, q.maxOutputSize, q.maxProcessNumber, q.uid, q.gid,
    q.memoryLimitCheckOnly], IsInt n
  filled : ∀ s ∈ [q.exePath, q.inputPath, q.outputPath, q.errorPath, q.logPath] ++ q.args ++ q.env, s ≠ []
  noNul : ∀ s ∈ [q.exePath, q.inputPath, q.outputPath, q.errorPath, q.logPath] ++ q.args ++ q.env ++ q.seccompRuleName.toList,
    '\x00' ∉ s
  args : q.args.length ≤ 255
  env : q.env.length ≤ 255

/-- A parameter has a value of the wrong type: `args` or `env` not a list of strings, a number not an int (or bool), a path not a
string, the rule name neither a string nor None. -/
def WrongType (v : Var) (x : PyVal) : Prop :=
  match v with
  | .args | .env => ¬∃ ss : List CStr, x = .list (ss.map .str)
  | .exePath | .inputPath | .outputPath | .errorPath | .logPath => ¬∃ s, x = .str s
  | .seccompRuleName => ¬((∃ s, x = .str s) ∨ x = .none)
  | _ => ¬((∃ n, x = .int n) ∨ ∃ b, x = .bool b)

/-- The parameters by name. -/
def param : Var → CStr
  | .maxCpuTime => c!"max_cpu_time"
  | .maxRealTime => c!"max_real_time"
  | .maxMemory => c!"max_memory"
  | .maxStack => c!"max_stack"
  | .maxOutputSize => c!"max_output_size"
  | .maxProcessNumber => c!"max_process_number"
  | .exePath => c!"exe_path"
  | .inputPath => c!"input_path"
  | .outputPath => c!"output_path"
  | .errorPath => c!"error_path"
  | .args => c!"args"
  | .env => c!"env"
  | .logPath => c!"log_path"
  | .seccompRuleName => c!"seccomp_rule_name"
  | .uid => c!"uid"
  | .gid => c!"gid"
  | .memoryLimitCheckOnly => c!"memory_limit_check_only"

/-- What should be said about a value of the wrong type. -/
def complaint (v : Var) (x : PyVal) : CStr :=
  param v ++
    match v, x with
    | .args, .list _ | .env, .list _ => c!" item must be a string"
    | .args, _ | .env, _ => c!" must be a list"
    | .exePath, _ | .inputPath, _ | .outputPath, _ | .errorPath, _ | .logPath, _ => c!" must be a string"
    | .seccompRuleName, _ => c!" must be a string or None"
    | _, _ => c!" must be a int"

end Judger.Spec.Python
