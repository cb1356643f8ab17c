import Verif.Model.Lua

/-!
# What a Lua call asks for
-/

set_option autoImplicit false

namespace Judger.Spec.Lua

open Judger.Lua

/-- The numeric fields: name, where the configuration keeps it, the values its C type can hold. -/
def numericFields : List (CStr × (Config → Int) × (Int → Prop)) :=
  [(c!"max_cpu_time", (·.maxCpuTime), IsInt), (c!"max_real_time", (·.maxRealTime), IsInt), (c!"max_memory", (·.maxMemory), IsLong),
   (c!"max_process_number", (·.maxProcessNumber), IsInt), (c!"max_output_size", (·.maxOutputSize), IsLong),
   (c!"uid", (·.uid), fun n => 0 ≤ n ∧ n < 4294967296), (c!"gid", (·.gid), fun n => 0 ≤ n ∧ n < 4294967296)]

/-- A table that lists strings without NUL: number keys, string values. -/
def Lists (entries : List (LuaVal × LuaVal)) (ss : List CStr) : Prop :=
  entries.map (·.2) = ss.map .string ∧ (∀ e ∈ entries, ∃ n, e.1 = .number n) ∧ ∀ s ∈ ss, '\x00' ∉ s

/-- The string fields and where the configuration keeps them. -/
def stringFields : List (CStr × (Config → Option CStr)) :=
  [(c!"exe_path", fun c => some c.exePath), (c!"input_path", (·.inputPath)), (c!"output_path", (·.outputPath)),
   (c!"error_path", (·.errorPath)), (c!"log_path", fun c => some c.logPath), (c!"seccomp_rule_name", (·.seccompRuleName))]

/-- The list fields and where the configuration keeps them. -/
def listFields : List (CStr × (Config → List CStr)) := [(c!"args", (·.args)), (c!"env", (·.env))]

/-- A list of at most 255 strings with number keys. -/
def StringList (entries : List (LuaVal × LuaVal)) : Prop :=
  entries.length ≤ 255 ∧ ∀ e ∈ entries, (∃ n, e.1 = .number n) ∧ ∃ s, e.2 = .string s

/-- The field `name` has a value of the right type. -/
def FieldOk (get : CStr → LuaVal) (name : CStr) : Prop :=
  if name ∈ numericFields.map (·.1) then ∃ n, get name = .number n
  else if name = c!"seccomp_rule_name" then get name = .nil ∨ ∃ s, get name = .string s
  else if name ∈ stringFields.map (·.1) then ∃ s, get name = .string s
  else ∃ es, get name = .table es ∧ StringList es

/-- All fields. -/
def fieldNames : List CStr := numericFields.map (·.1) ++ stringFields.map (·.1) ++ listFields.map (·.1)

/-- The table a call should return for a result. -/
def Shows (t : List (CStr × Int)) (r : Result) : Prop :=
  ∀ k v, (k, v) ∈ t ↔ (k, v) ∈ [(c!"cpu_time", r.cpuTime), (c!"real_time", r.realTime), (c!"memory", r.memory), (c!"signal", r.signal),
    (c!"exit_code", r.exitCode), (c!"error", r.error), (c!"result", r.result)]

end Judger.Spec.Lua
