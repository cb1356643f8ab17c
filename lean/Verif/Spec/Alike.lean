import Verif.Spec.Python
import Verif.Spec.Node

/-!
# The same request in Python and in JavaScript
-/

set_option autoImplicit false

namespace Judger.Spec

/-- A Python value as a JavaScript value; None is a property that is left out. -/
def jsOf : Py.PyVal → Node.JsVal
  | .none => .undefined
  | .bool _ => .other
  | .int n => .number n
  | .str s => .string s
  | .list items => .array (items.map fun | .str s => .string s | _ => .other)
  | .other => .other

/-- The parameters of the Python function. -/
def params : List Py.Var :=
  [.maxCpuTime, .maxRealTime, .maxMemory, .memoryLimitCheckOnly, .maxStack, .maxProcessNumber, .maxOutputSize, .exePath,
   .inputPath, .outputPath, .errorPath, .args, .env, .logPath, .seccompRuleName, .uid, .gid]

/-- The JavaScript object whose properties are the keyword arguments of a Python call. -/
def alike (call : Py.Var → Py.PyVal) (key : CStr) : Node.JsVal :=
  match params.find? (fun v => Python.param v = key) with
  | some v => jsOf (call v)
  | none => .undefined

end Judger.Spec
