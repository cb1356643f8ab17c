import Verif.Spec.JsonText
import Verif.Model.Config

/-!
# The Python binding: `bindings/Python/_judger/__init__.py`

A call of `run` is a value for each of its parameters.  A Python string is given as the bytes `subprocess` passes to the process
(its encoding with the file-system encoding); the modelled code neither looks into strings nor changes them.
-/

set_option autoImplicit false

namespace Judger.Py

/-- A Python value, as far as the code distinguishes values (`isinstance` of `list`, `str`, `int`; `is None`).  `bool` is separate
because it is a subclass of `int` with its own `format`. -/
inductive PyVal where
  | none
  | bool (b : Bool)
  | int (n : Int)
  | str (s : CStr)
  | list (items : List PyVal)
  | other
deriving Repr

/-- __init__.py:28-44, the parameters of `run`. -/
inductive Var where
  | maxCpuTime | maxRealTime | maxMemory | maxStack | maxOutputSize | maxProcessNumber
  | exePath | inputPath | outputPath | errorPath
  | args | env | logPath | seccompRuleName | uid | gid | memoryLimitCheckOnly
deriving Repr, DecidableEq

/-- The parameter names, which `vars()[var]` looks up and `format` prints. -/
def Var.name : Var → CStr
  | .maxCpuTime => c!"max_cpu_time"
  | .maxRealTime => c!"max_real_time"
  | .maxMemory => c!"max_memory"
  | .maxStack => c!"max_stack"
  | .maxOutputSize => c!"max_output_size"
  | .maxProcessNumber => c!"max_process_number"
  | .exePath => c!"exe_path"
  | .inputPath => c!"input_path"
  | .outputPath => c!"output_path"
  | .errorPath => c!"error_path"
  | .args => c!"args"
  | .env => c!"env"
  | .logPath => c!"log_path"
  | .seccompRuleName => c!"seccomp_rule_name"
  | .uid => c!"uid"
  | .gid => c!"gid"
  | .memoryLimitCheckOnly => c!"memory_limit_check_only"

/-- __init__.py:45 -/
def strListVars : List Var := [.args, .env]
/-- __init__.py:46-48 -/
def intVars : List Var :=
  [.maxCpuTime, .maxRealTime, .maxMemory, .maxStack, .maxOutputSize, .maxProcessNumber, .uid, .gid, .memoryLimitCheckOnly]
/-- __init__.py:49 -/
def strVars : List Var := [.exePath, .inputPath, .outputPath, .errorPath, .logPath]

/-- `"--{}={}".format(name, text)` (__init__.py:60, 67, 73, 78). -/
def word (name text : CStr) : CStr := c!"--" ++ (name ++ ('=' :: text))

/-- __init__.py:57-60, one item of a list; the left case is the message of the `ValueError`. -/
def itemWord (v : Var) : PyVal → Except CStr CStr
  | .str s => .ok (word v.name s)
  | _ => .error (v.name ++ c!" item must be a string")

/-- __init__.py:57-60, the loop over a list. -/
def itemWords (v : Var) : List PyVal → Except CStr (List CStr)
  | [] => .ok []
  | x :: xs =>
    match itemWord v x with
    | .error m => .error m
    | .ok w =>
      match itemWords v xs with
      | .error m => .error m
      | .ok ws => .ok (w :: ws)

/-- __init__.py:53-60, one list parameter. -/
def listWords (v : Var) : PyVal → Except CStr (List CStr)
  | .list items => itemWords v items
  | _ => .error (v.name ++ c!" must be a list")

/-- __init__.py:62-67, one integer parameter.  `True` and `False` are ints: they differ from -1 and print as their names. -/
def intWords (v : Var) : PyVal → Except CStr (List CStr)
  | .int n => .ok (if n ≠ -1 then [word v.name (showInt n)] else [])
  | .bool b => .ok [word v.name (if b then c!"True" else c!"False")]
  | _ => .error (v.name ++ c!" must be a int")

/-- __init__.py:69-73, one string parameter. -/
def strWords (v : Var) : PyVal → Except CStr (List CStr)
  | .str s => .ok [word v.name s]
  | _ => .error (v.name ++ c!" must be a string")

/-- __init__.py:75-78; the option is written `--seccomp_rule`, an abbreviation of `--seccomp_rule_name`. -/
def seccompWords : PyVal → Except CStr (List CStr)
  | .str s => .ok (if s ≠ [] then [word c!"seccomp_rule" s] else [])
  | .none => .ok []
  | _ => .error c!"seccomp_rule_name must be a string or None"

/-- The loops of __init__.py:53-73: `one` for each of the variables, in order; the first error ends it. -/
def forVars (one : Var → PyVal → Except CStr (List CStr)) (call : Var → PyVal) : List Var → Except CStr (List CStr)
  | [] => .ok []
  | v :: vs =>
    match one v (call v) with
    | .error m => .error m
    | .ok ws =>
      match forVars one call vs with
      | .error m => .error m
      | .ok ws' => .ok (ws ++ ws')

/-- What a call of `run` comes to before the judger's output is read. -/
inductive Started where
  /-- `ValueError` with this message; no process -/
  | valueError (msg : CStr)
  /-- `subprocess.Popen(argv)` (__init__.py:80) -/
  | popen (argv : List CStr)
deriving Repr, DecidableEq

/-- __init__.py:51-78: the arguments, without the program name, or the message of a `ValueError`. -/
def procArgs (call : Var → PyVal) : Except CStr (List CStr) :=
  match forVars listWords call strListVars with
  | .error m => .error m
  | .ok a =>
    match forVars intWords call intVars with
    | .error m => .error m
    | .ok b =>
      match forVars strWords call strVars with
      | .error m => .error m
      | .ok c =>
        match seccompWords (call .seccompRuleName) with
        | .error m => .error m
        | .ok d => .ok (a ++ (b ++ (c ++ d)))

/-- __init__.py:51, the program. -/
def judgerPath : CStr := c!"/usr/lib/judger/libjudger.so"

/-- __init__.py:51-80.  `Popen` raises `ValueError: embedded null byte` when an argument contains a NUL. -/
def start (call : Var → PyVal) : Started :=
  match procArgs call with
  | .error m => .valueError m
  | .ok ws => if ws.any (·.contains '\x00') then .valueError c!"embedded null byte" else .popen (judgerPath :: ws)

/-- How `run` ends once the process has been started. -/
inductive Finished where
  | valueError (msg : CStr)
  /-- the value `json.loads` gives -/
  | value (v : Spec.JsonText.Value)

def hexChar (n : Nat) : Char := if n < 10 then Char.ofNat (48 + n) else Char.ofNat (87 + n)

/-- A byte in Python 3's `repr` of a `bytes` object. -/
def reprByte (quote c : Char) : CStr :=
  if c = quote ∨ c = '\\' then ['\\', c]
  else if c = '\t' then c!"\\t"
  else if c = '\n' then c!"\\n"
  else if c = '\r' then c!"\\r"
  else if c.toNat < 32 ∨ 127 ≤ c.toNat then ['\\', 'x', hexChar (c.toNat / 16), hexChar (c.toNat % 16)]
  else [c]

/-- `"{}".format(err)` of a `bytes` object in Python 3: its `repr`.  (In Python 2 it is the bytes themselves.) -/
def reprBytes (err : CStr) : CStr :=
  let quote := if '\'' ∈ err ∧ '"' ∉ err then '"' else '\''
  ['b', quote] ++ (err.map (reprByte quote)).flatten ++ [quote]

/-- A byte that continues a character. -/
def isTail (c : Char) : Bool := decide (0x80 ≤ c.toNat ∧ c.toNat < 0xC0)

/-- `bytes.decode("utf-8")` of Python 3 (__init__.py:84) gives a text: no overlong forms, no surrogates, nothing above U+10FFFF. -/
def decodes : CStr → Bool
  | [] => true
  | a :: r =>
    if a.toNat < 0x80 then decodes r
    else if 0xC2 ≤ a.toNat ∧ a.toNat < 0xE0 then
      match r with
      | b :: r => isTail b && decodes r
      | [] => false
    else if 0xE0 ≤ a.toNat ∧ a.toNat < 0xF0 then
      match r with
      | b :: c :: r => isTail b && isTail c && decide (a.toNat = 0xE0 → 0xA0 ≤ b.toNat) && decide (a.toNat = 0xED → b.toNat < 0xA0) && decodes r
      | _ => false
    else if 0xF0 ≤ a.toNat ∧ a.toNat < 0xF5 then
      match r with
      | b :: c :: d :: r =>
        isTail b && isTail c && isTail d && decide (a.toNat = 0xF0 → 0x90 ≤ b.toNat) && decide (a.toNat = 0xF4 → b.toNat < 0x90) && decodes r
      | _ => false
    else false

/-- __init__.py:81-84; `out` and `err` are what the process and its children wrote to the two pipes.  Bytes that are no UTF-8 text make `decode`
raise, a text that is no JSON makes `json.loads` raise; both exceptions are `ValueError`s, whose texts are not modelled.  The JSON reader works on
the bytes: outside strings only ASCII characters can stand, and inside a string the value keeps the bytes of each character. -/
noncomputable def finish (out err : CStr) : Finished :=
  if err ≠ [] then .valueError (c!"Error occurred while calling judger: " ++ reprBytes err)
  else if decodes out = false then .valueError c!"'utf-8' codec can't decode"
  else
    match Spec.JsonText.parse true out with
    | some v => .value v
    | none => .valueError c!"Expecting value"

/-- __init__.py:4-26, the module's constants. -/
def constants : List (CStr × Int) :=
  [(c!"UNLIMITED", -1), (c!"VERSION", 0x020101),
   (c!"RESULT_SUCCESS", 0), (c!"RESULT_WRONG_ANSWER", -1), (c!"RESULT_CPU_TIME_LIMIT_EXCEEDED", 1),
   (c!"RESULT_REAL_TIME_LIMIT_EXCEEDED", 2), (c!"RESULT_MEMORY_LIMIT_EXCEEDED", 3), (c!"RESULT_RUNTIME_ERROR", 4),
   (c!"RESULT_SYSTEM_ERROR", 5),
   (c!"ERROR_INVALID_CONFIG", -1), (c!"ERROR_FORK_FAILED", -2), (c!"ERROR_PTHREAD_FAILED", -3), (c!"ERROR_WAIT_FAILED", -4),
   (c!"ERROR_ROOT_REQUIRED", -5), (c!"ERROR_LOAD_SECCOMP_FAILED", -6), (c!"ERROR_SETRLIMIT_FAILED", -7),
   (c!"ERROR_DUP2_FAILED", -8), (c!"ERROR_SETUID_FAILED", -9), (c!"ERROR_EXECVE_FAILED", -10), (c!"ERROR_SPJ_ERROR", -11)]

end Judger.Py
