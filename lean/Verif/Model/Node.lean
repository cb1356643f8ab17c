import Verif.Spec.JsonText
import Verif.Model.Config

/-!
# The Node.js binding: `bindings/NodeJS/judger.cc`

A JavaScript string is given as its UTF-8 text.  Getters that throw, and V8 running out of memory, are not modelled.  `method` is the call up to
`popen` with any argument; everything else speaks of an argument that is an object, given by its properties.
-/

set_option autoImplicit false

namespace Judger.Node

/-- A JavaScript value, as far as the code distinguishes values. -/
inductive JsVal where
  | undefined
  | null
  /-- a number, as the 64-bit integer `ToInteger(...)->Value()` gives (judger.cc:35, 39) -/
  | number (n : Int)
  | string (s : CStr)
  | array (items : List JsVal)
  /-- an object that is not an array; `get` gives its properties -/
  | object (get : CStr → JsVal)
  /-- a value that is neither an object nor one of the above: a boolean, a symbol -/
  | other

/-- `IsNullOrUndefined()`. -/
def JsVal.isNil : JsVal → Bool
  | .undefined | .null => true
  | _ => false

/-- The outcome of a piece of the binding: a value, a JavaScript exception, or undefined behaviour. -/
inductive NRes (α : Type) where
  | ok (a : α)
  | throws (msg : CStr)
  | ub

/-- `str+=" --"; str+=key; str+="="; str+=text` (judger.cc:36-39, 68-71). -/
def word (key text : CStr) : CStr := c!" --" ++ (key ++ ('=' :: text))

/-- judger.cc:29-46 `ToNumber`, for the property `key` of the argument: what is appended to the command. -/
def toNumber (get : CStr → JsVal) (key : CStr) : NRes CStr :=
  match get key with
  | .undefined | .null => .ok []
  | .number n => .ok (word key (showInt n))
  | _ => .throws c!"typeof argument must be Object!"

/-- judger.cc:60-63, the value `ToCStr` works on: the property `key` of an object, anything else itself.  An array has no property
`args` or `env`. -/
def target (v : JsVal) (key : CStr) : JsVal :=
  match v with
  | .object get => get key
  | .array _ => .undefined
  | v => v

/-- judger.cc:48-52, 57: `strcpy` into `char str_content[255]`: the text up to its first NUL; undefined if it does not fit. -/
def copyText (s : CStr) : NRes CStr :=
  let t := s.takeWhile (· ≠ '\x00')
  if t.length < 255 then .ok t else .ub

/-- judger.cc:55-80 `ToCStr`. -/
def toCStr (v : JsVal) (key : CStr) : NRes CStr :=
  match target v key with
  | .undefined | .null => .ok []
  | .string s =>
    match copyText s with
    | .ok t => .ok (word key t)
    | .throws m => .throws m
    | .ub => .ub
  | _ => .throws (c!"typeof " ++ key ++ c!" must be String!")

/-- A loop that appends to the command until something goes wrong. -/
def each {α : Type} (f : α → NRes CStr) : List α → NRes CStr
  | [] => .ok []
  | x :: xs =>
    match f x with
    | .ok a =>
      match each f xs with
      | .ok b => .ok (a ++ b)
      | .throws m => .throws m
      | .ub => .ub
    | .throws m => .throws m
    | .ub => .ub

/-- judger.cc:125 -/
def intVars : List CStr :=
  [c!"max_cpu_time", c!"max_real_time", c!"max_memory", c!"memory_limit_check_only", c!"max_stack", c!"max_process_number",
   c!"max_output_size", c!"uid", c!"gid"]
/-- judger.cc:126 -/
def strVars : List CStr := [c!"input_path", c!"output_path", c!"error_path", c!"exe_path", c!"log_path", c!"seccomp_rule_name"]

/-- judger.cc:139-156, the arguments. -/
def argsPart (margs : JsVal) : NRes CStr :=
  match margs with
  | .undefined | .null => .ok []
  | .array items => each (toCStr · c!"args") items
  | _ => .throws c!"args must be a list"

/-- `IsArray()`. -/
def JsVal.isArray : JsVal → Bool
  | .array _ => true
  | _ => false

/-- judger.cc:158-176, the environment.  Line 162 asks whether `margs`, not `menv`, is an array; line 163 then casts `menv` to an
array without a check, undefined for any other value. -/
def envPart (margs menv : JsVal) : NRes CStr :=
  if menv.isNil then .ok []
  else if margs.isArray then
    match menv with
    | .array items => each (toCStr · c!"env") items
    | _ => .ub
  else .throws c!"env must be a list"

/-- judger.cc:117 -/
def judgerPath : CStr := c!"/usr/lib/judger/libjudger.so"

/-- judger.cc:117-183: the command given to `popen`. -/
def command (get : CStr → JsVal) : NRes CStr :=
  match each (toNumber get) intVars with
  | .throws m => .throws m
  | .ub => .ub
  | .ok a =>
    match each (fun key => toCStr (.object get) key) strVars with
    | .throws m => .throws m
    | .ub => .ub
    | .ok b =>
      match argsPart (get c!"args") with
      | .throws m => .throws m
      | .ub => .ub
      | .ok c =>
        match envPart (get c!"args") (get c!"env") with
        | .throws m => .throws m
        | .ub => .ub
        | .ok d => .ok (judgerPath ++ (a ++ (b ++ (c ++ d))))

/-- `IsObject()`. -/
def JsVal.isObject : JsVal → Bool
  | .array _ | .object _ => true
  | _ => false

/-- `ToObject()->Get(...)` (judger.cc:31, 61, 139, 158).  An array has none of the properties that are asked for. -/
def JsVal.props : JsVal → CStr → JsVal
  | .object get => get
  | _ => fun _ => .undefined

/-- judger.cc:112-184: a call up to `popen`, which may fail.  `arg` is `args[0]`, which is undefined in a call without arguments.  The exceptions of
lines 120 and 184 are thrown without a `return`.  After the first, line 31 looks into the object made of the argument: for null and undefined there is
none and the handle is empty; for other values V8 does not allow to go on with a pending exception.  After the second, line 185 calls `fgets` with NULL. -/
def method (arg : JsVal) (popen : Bool) : NRes CStr :=
  if !arg.isObject then .ub
  else
    match command arg.props with
    | .throws m => .throws m
    | .ub => .ub
    | .ok cmd => if popen then .ok cmd else .ub

/-! ## Reading the output -/

/-- One `fgets` with room for `n` characters: what it reads and what is left. -/
def fgets : Nat → CStr → CStr × CStr
  | 0, s => ([], s)
  | _ + 1, [] => ([], [])
  | n + 1, c :: r =>
    if c = '\n' then ([c], r)
    else
      let p := fgets n r
      (c :: p.1, p.2)

/-- judger.cc:180-187: `fgets(buf, 255, f)` reads at most 254 characters; `std::string(buf)` ends at the first NUL.  The first
argument bounds the number of reads; each read takes at least one character. -/
def readResult : Nat → CStr → CStr
  | 0, _ => []
  | _ + 1, [] => []
  | k + 1, s =>
    let p := fgets 254 s
    p.1.takeWhile (· ≠ '\x00') ++ readResult k p.2

/-- judger.cc:192-195: the index of the last '{' below `k`, or -1. -/
def lastBrace (pr : CStr) : Nat → Int
  | 0 => -1
  | k + 1 => if pr[k]? = some '{' then k else lastBrace pr k

/-- How the call ends. -/
inductive Finished where
  /-- `printed` goes to stdout, and the value is returned -/
  | returns (printed : CStr) (value : Spec.JsonText.Value)
  /-- `ToLocalChecked` on an empty handle: the process is aborted (judger.cc:201) -/
  | aborts (printed : CStr)
  | ub

/-- judger.cc:185-200; `out` is everything written to the pipe.  The text that is printed and the text that is handed to `JSON::Parse`; none
if the latter lies outside the string. -/
def handed (out : CStr) : Option (CStr × CStr) :=
  let pr := readResult out.length out                       -- 185-190
  let len0 := castInt pr.length                             -- 191
  if len0 < 0 then none                                     -- the loop does not run; pr + len is outside the string
  else
    let len := lastBrace pr len0.toNat                      -- 192-195
    if len < 0 then none                                    -- 200: pr - 1
    else some (if len ≠ 0 then pr.take len.toNat else [], pr.drop len.toNat)   -- 197-198, 200

/-- judger.cc:197-201 -/
noncomputable def parsed : Option (CStr × CStr) → Finished
  | none => .ub
  | some (printed, text) =>
    match Spec.JsonText.parse false text with
    | some v => .returns printed v
    | none => .aborts printed

/-- judger.cc:185-201 -/
noncomputable def finish (out : CStr) : Finished := parsed (handed out)

/-- judger.cc:208-229, the exported constants. -/
def constants : List (CStr × Int) :=
  [(c!"UNLIMITED", -1), (c!"VERSION", 0x020101),
   (c!"RESULT_SUCCESS", 0), (c!"RESULT_WRONG_ANSWER", -1), (c!"RESULT_CPU_TIME_LIMIT_EXCEEDED", 1),
   (c!"RESULT_REAL_TIME_LIMIT_EXCEEDED", 2), (c!"RESULT_MEMORY_LIMIT_EXCEEDED", 3), (c!"RESULT_RUNTIME_ERROR", 4),
   (c!"RESULT_SYSTEM_ERROR", 5),
   (c!"ERROR_INVALID_CONFIG", -1), (c!"ERROR_FORK_FAILED", -2), (c!"ERROR_PTHREAD_FAILED", -3), (c!"ERROR_WAIT_FAILED", -4),
   (c!"ERROR_ROOT_REQUIRED", -5), (c!"ERROR_LOAD_SECCOMP_FAILED", -6), (c!"ERROR_SETRLIMIT_FAILED", -7),
   (c!"ERROR_DUP2_FAILED", -8), (c!"ERROR_SETUID_FAILED", -9), (c!"ERROR_EXECVE_FAILED", -10), (c!"ERROR_SPJ_ERROR", -11)]

end Judger.Node
