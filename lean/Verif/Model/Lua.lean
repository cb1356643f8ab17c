import Verif.Model.Main
import Verif.Model.Runner

/-!
# The Lua binding: `bindings/Lua/judger.c`

`globalJudge` is the part that reads the table (`get` gives its fields) into the configuration; `call` is the whole function on
the arguments of a Lua call.  Tables have no metatables.  Running out of memory is not modelled.
-/

set_option autoImplicit false

namespace Judger.Lua

/-- A Lua value, by `lua_type`. -/
inductive LuaVal where
  | nil
  /-- a number, as the integer `lua_tointeger` gives -/
  | number (n : Int)
  | string (s : CStr)
  /-- a table: its keys and values in the order of `lua_next` -/
  | table (entries : List (LuaVal × LuaVal))
  | other

/-- LUA_TNUMBER, LUA_TSTRING, LUA_TTABLE -/
inductive Ty where
  | number | string | table
deriving Repr, DecidableEq

/-- `lua_type(L, -1) == t` -/
def LuaVal.is : LuaVal → Ty → Bool
  | .number _, .number => true
  | .string _, .string => true
  | .table _, .table => true
  | _, _ => false

def LuaVal.isNil : LuaVal → Bool
  | .nil => true
  | _ => false

/-- judger.c:59-75 `arg_mask`: name, type, may be nil. -/
def argMask : List (CStr × Ty × Bool) :=
  [(c!"max_cpu_time", .number, false), (c!"max_real_time", .number, false), (c!"max_memory", .number, false),
   (c!"max_process_number", .number, false), (c!"max_output_size", .number, false), (c!"exe_path", .string, false),
   (c!"input_path", .string, false), (c!"output_path", .string, false), (c!"error_path", .string, false),
   (c!"log_path", .string, false), (c!"seccomp_rule_name", .string, true), (c!"args", .table, false), (c!"env", .table, false),
   (c!"uid", .number, false), (c!"gid", .number, false)]

/-- judger.c:85-90 `_strdup(lua_tostring(...))`: the text up to its first NUL. -/
def dup (s : CStr) : CStr := s.takeWhile (· ≠ '\x00')

/-- judger.c:108-132 `lua_checkstringtable`: the stores into `dst`, and the number of items unless the table is refused.
`size` is `table_size`. -/
def checkStringTable (maxSize : Nat) : Nat → List (LuaVal × LuaVal) → List (Nat × CStr) × Option Nat
  | size, [] => ([], some size)
  | size, (k, v) :: es =>
    match v with
    | .string s =>
      if k.is .number then
        if size = maxSize then ([], none)
        else
          let p := checkStringTable maxSize (size + 1) es
          ((size, dup s) :: p.1, p.2)
      else ([], none)
    | _ => ([], none)

/-- All stores `global_judge` makes into an array of the configuration for a table (judger.c:173-177), in order; `none` stands for
NULL.  The second component says whether the table was accepted. -/
def tableStores (entries : List (LuaVal × LuaVal)) : List (Nat × Option CStr) × Bool :=
  match checkStringTable (256 - 1) 0 entries with
  | (ws, some size) => (ws.map (fun w => (w.1, some w.2)) ++ [(size, none)], true)
  | (ws, none) => (ws.map (fun w => (w.1, some w.2)), false)

/-- Memory after the stores. -/
def apply (cells : Cells) : List (Nat × Option CStr) → Cells
  | [] => cells
  | (i, x) :: ws => apply (fun j => if j = i then x else cells j) ws

/-- judger.c:155: `memset(&config, 0, …)`. -/
def zeroCells : Cells := fun _ => none

/-- judger.c:177 and execve: the strings of an accepted table. -/
def tableStrings (entries : List (LuaVal × LuaVal)) : List CStr := readStrings (apply zeroCells (tableStores entries).1) 0 256

/-- `*(int *)&x = n` for an `int` x. -/
def storeInt (n : Int) : Int := castInt n
/-- `*(int *)&x = n` for a zeroed `long` x: only the low 32 bits are stored (little endian). -/
def storeLong (n : Int) : Int := castU32 n
/-- `*(int *)&x = n` for an unsigned 32-bit x. -/
def storeId (n : Int) : Int := castU32 n

/-- `lua_tointeger` of a field that is a number. -/
def num (get : CStr → LuaVal) (name : CStr) : Int :=
  match get name with
  | .number n => n
  | _ => 0

/-- `_strdup(lua_tostring(...))` of a field that is a string. -/
def str (get : CStr → LuaVal) (name : CStr) : Option CStr :=
  match get name with
  | .string s => some (dup s)
  | _ => none

/-- The entries of a field that is a table. -/
def tbl (get : CStr → LuaVal) (name : CStr) : List (LuaVal × LuaVal) :=
  match get name with
  | .table es => es
  | _ => []

/-- judger.c:158-163 and 172-176: the field is refused. -/
def refused (get : CStr → LuaVal) (m : CStr × Ty × Bool) : Bool :=
  (!(get m.1).is m.2.1 && !(m.2.2 && (get m.1).isNil)) ||
  match get m.1 with
  | .table es => !(tableStores es).2
  | _ => false

/-- What a call does. -/
inductive Out where
  /-- `luaL_error("bad argument …")` for this field -/
  | error (name : CStr)
  /-- `run(&config, &result)` -/
  | runs (c : Config)

/-- judger.c:134-187 `global_judge`.  Fields without an entry in `arg_mask` (`max_stack`, `memory_limit_check_only`) keep the 0 of
line 155. -/
def globalJudge (get : CStr → LuaVal) : Out :=
  match argMask.find? (refused get) with
  | some m => .error m.1
  | none =>
    .runs {
      maxCpuTime := storeInt (num get c!"max_cpu_time")
      maxRealTime := storeInt (num get c!"max_real_time")
      maxMemory := storeLong (num get c!"max_memory")
      maxStack := 0
      maxProcessNumber := storeInt (num get c!"max_process_number")
      maxOutputSize := storeLong (num get c!"max_output_size")
      memoryLimitCheckOnly := 0
      exePath := (str get c!"exe_path").getD []
      inputPath := str get c!"input_path"
      outputPath := str get c!"output_path"
      errorPath := str get c!"error_path"
      args := tableStrings (tbl get c!"args")
      env := tableStrings (tbl get c!"env")
      logPath := (str get c!"log_path").getD []
      seccompRuleName := str get c!"seccomp_rule_name"
      uid := storeId (num get c!"uid")
      gid := storeId (num get c!"gid") }

/-- judger.c:189-196: the table returned. -/
def resultTable (r : Result) : List (CStr × Int) :=
  [(c!"cpu_time", r.cpuTime), (c!"real_time", r.realTime), (c!"memory", r.memory), (c!"signal", r.signal),
   (c!"exit_code", r.exitCode), (c!"error", r.error), (c!"result", r.result)]

/-- `lua_gettable` of a table without metatable: the value under the string key `name`, nil if there is none. -/
def field (entries : List (LuaVal × LuaVal)) (name : CStr) : LuaVal :=
  match entries with
  | [] => .nil
  | (.string k, v) :: es => if k = name then v else field es name
  | _ :: es => field es name

/-- What a Lua call of `judger.run` ends in. -/
inductive CallOut where
  /-- a Lua error -/
  | error
  /-- `assert` fails: the host process is aborted -/
  | abort
  /-- the table `resultTable` of this result is returned -/
  | returns (t : List (CStr × Int))
  /-- the forked child inside `run()`, which does not come back -/
  | inChild

/-- judger.c:134-201 `global_judge` called with `args`.  157: the first argument must be a table.  160: each field is taken from the
element below the pushed name, which is the last argument; indexing anything but a table ends in an error (for a string, the
field is nil and 161-162 refuse it).  197: the stack holds the arguments and the new table.  The Makefile does not define NDEBUG. -/
def call (args : List LuaVal) (prior : Result) (e : RunEnv) : CallOut :=
  match args.head?, args.getLast? with
  | some (.table _), some (.table es) =>
    match globalJudge (field es) with
    | .error _ => .error
    | .runs c =>
      match run c prior e with
      | .returned r _ => if args.length + 1 = 2 then .returns (resultTable r) else .abort
      | .inChild _ => .inChild
  | _, _ => .error

/-- judger.c:29-51 `conf_item`. -/
def constants : List (CStr × Int) :=
  [(c!"_VERSION", VERSION), (c!"_UNLIMITED", UNLIMITED), (c!"_RESULT_WRONG_ANSWER", WRONG_ANSWER), (c!"_RESULT_SUCCESS", SUCCESS),
   (c!"_RESULT_CPU_TIME_LIMIT_EXCEEDED", CPU_TIME_LIMIT_EXCEEDED), (c!"_RESULT_REAL_TIME_LIMIT_EXCEEDED", REAL_TIME_LIMIT_EXCEEDED),
   (c!"_RESULT_MEMORY_LIMIT_EXCEEDED", MEMORY_LIMIT_EXCEEDED), (c!"_RESULT_RUNTIME_ERROR", RUNTIME_ERROR),
   (c!"_RESULT_SYSTEM_ERROR", SYSTEM_ERROR), (c!"_ERROR_INVALID_CONFIG", INVALID_CONFIG), (c!"_ERROR_FORK_FAILED", FORK_FAILED),
   (c!"_ERROR_PTHREAD_FAILED", PTHREAD_FAILED), (c!"_ERROR_WAIT_FAILED", WAIT_FAILED), (c!"_ERROR_ROOT_REQUIRED", ROOT_REQUIRED),
   (c!"_ERROR_LOAD_SECCOMP_FAILED", LOAD_SECCOMP_FAILED), (c!"_ERROR_SETRLIMIT_FAILED", SETRLIMIT_FAILED),
   (c!"_ERROR_DUP2_FAILED", DUP2_FAILED), (c!"_ERROR_SETUID_FAILED", SETUID_FAILED), (c!"_ERROR_EXECVE_FAILED", EXECVE_FAILED),
   (c!"_ERROR_SPJ_ERROR", SPJ_ERROR)]

end Judger.Lua
