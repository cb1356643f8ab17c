import Verif.Model.ArgTable
import Verif.Model.Config

/-! # `main.c`: from the command line to `run()` and back to text -/

set_option autoImplicit false

namespace Judger

/-- main.c:14-40 `arg_table` (without the terminating `arg_end(10)`). -/
def mainTable : List ArgEntry :=
  [ { longopts := some c!"help", kind := .lit, mincount := 0, maxcount := 1 }
  , { longopts := some c!"version", kind := .lit, mincount := 0, maxcount := 1 }
  , { longopts := some c!"max_cpu_time", kind := .int, mincount := 0, maxcount := 1 }
  , { longopts := some c!"max_real_time", kind := .int, mincount := 0, maxcount := 1 }
  , { longopts := some c!"max_memory", kind := .int, mincount := 0, maxcount := 1 }
  , { longopts := some c!"memory_limit_check_only", kind := .int, mincount := 0, maxcount := 1 }
  , { longopts := some c!"max_stack", kind := .int, mincount := 0, maxcount := 1 }
  , { longopts := some c!"max_process_number", kind := .int, mincount := 0, maxcount := 1 }
  , { longopts := some c!"max_output_size", kind := .int, mincount := 0, maxcount := 1 }
  , { longopts := some c!"exe_path", kind := .str, mincount := 1, maxcount := 1 }
  , { longopts := some c!"input_path", kind := .str, mincount := 0, maxcount := 1 }
  , { longopts := some c!"output_path", kind := .str, mincount := 0, maxcount := 1 }
  , { longopts := some c!"error_path", kind := .str, mincount := 0, maxcount := 1 }
  , { longopts := some c!"args", kind := .str, mincount := 0, maxcount := 255 }
  , { longopts := some c!"env", kind := .str, mincount := 0, maxcount := 255 }
  , { longopts := some c!"log_path", kind := .str, mincount := 0, maxcount := 1 }
  , { longopts := some c!"seccomp_rule_name", kind := .str, mincount := 0, maxcount := 1 }
  , { longopts := some c!"uid", kind := .int, mincount := 0, maxcount := 1 }
  , { longopts := some c!"gid", kind := .int, mincount := 0, maxcount := 1 } ]

/-- main.c:39 `arg_end(10)`. -/
def maxErrors : Nat := 10

/-- The pointer cells of `_config.args` (0-255) and `_config.env` (256-511), adjacent in `struct config`
(runner.h:54-55); `none` is NULL. -/
abbrev Cells := Nat → Option CStr

/-- Store consecutive pointers. -/
def storeFrom (cells : Cells) : Nat → List CStr → Cells
  | _, [] => cells
  | i, s :: ss => storeFrom (fun j => if j = i then some s else cells j) (i + 1) ss

/-- Store a NULL pointer. -/
def storeNull (cells : Cells) (i : Nat) : Cells := fun j => if j = i then none else cells j

/-- main.c:129-144: the two arrays after `main` has filled them in, starting from what was on the stack (`junk`).  The write
`args[i] = NULL` at `i = 256` is out of bounds of `args`; it is modelled by what it does to the adjacent array. -/
def fillArrays (junk : Cells) (exe : CStr) (args env : List CStr) : Cells :=
  let cells := storeFrom junk 0 (exe :: args)                                              -- 129-135
  let cells := storeNull cells (args.length + 1)                                           -- 136
  let cells := storeFrom cells 256 env                                                     -- 138-143
  storeNull cells (256 + env.length)                                                      -- 144

/-- What `execve` reads from a pointer array: the strings up to the first NULL; at most `n` cells are looked at. -/
def readStrings (cells : Cells) : Nat → Nat → List CStr
  | _, 0 => []
  | i, n + 1 =>
    match cells i with
    | none => []
    | some s => s :: readStrings cells (i + 1) n

/-- `*x->ival` if `x->count > 0`, else the default. -/
def intOr (s : Slot) (d : Int) : Int := if s.count > 0 then s.ints.head?.getD 0 else d

/-- `x->sval[0]` if `x->count > 0`, else the default. -/
def strOr (s : Slot) (d : CStr) : CStr := if s.count > 0 then s.strs.head?.getD [] else d

/-- main.c:69-168: the configuration made from the parsed values. -/
def makeConfig (junk : Cells) (v : Nat → Slot) : Config :=
  let exe := (v 9).strs.head?.getD []                                                      -- 111
  let cells := fillArrays junk exe (v 13).strs (v 14).strs
  { maxCpuTime := intOr (v 2) UNLIMITED                                                    -- 69-73
    maxRealTime := intOr (v 3) UNLIMITED                                                   -- 75-79
    maxMemory := intOr (v 4) UNLIMITED                                                     -- 81-85
    memoryLimitCheckOnly := if (v 5).count > 0 then (if (v 5).ints.head?.getD 0 = 0 then 0 else 1) else 0  -- 87-91
    maxStack := intOr (v 6) (16 * 1024 * 1024)                                             -- 93-97
    maxProcessNumber := intOr (v 7) UNLIMITED                                              -- 99-103
    maxOutputSize := intOr (v 8) UNLIMITED                                                 -- 105-109
    exePath := exe
    inputPath := some (strOr (v 10) c!"/dev/stdin")                                        -- 113-117
    outputPath := some (strOr (v 11) c!"/dev/stdout")                                      -- 118-122
    errorPath := some (strOr (v 12) c!"/dev/stderr")                                       -- 123-127
    args := readStrings cells 0 512
    env := readStrings cells 256 256
    logPath := strOr (v 15) c!"judger.log"                                                 -- 146-150
    seccompRuleName := if (v 16).count > 0 then some ((v 16).strs.head?.getD []) else none -- 151-155
    uid := castU32 (intOr (v 17) 65534)                                                    -- 157-162
    gid := castU32 (intOr (v 18) 65534) }                                                  -- 163-168

/-- What `main` decides to do. -/
inductive MainOut where
  /-- main.c:47-52: print the help text, exit status 0. -/
  | help
  /-- main.c:54-57: print the version, exit status 0. -/
  | version
  /-- main.c:59-64: print the errors, exit status 1. -/
  | errors (recs : List ErrRec)
  /-- main.c:66-187: call `run()` with this configuration, print the result, exit status 0. -/
  | runs (c : Config)
deriving Repr, DecidableEq

/-- main.c:13-168; `none` when the command line is not parsed after `fuel` calls of getopt. -/
def mainDecide (posix : Bool) (junk : Cells) (argv : List CStr) (fuel : Nat) : Option MainOut :=
  match argParse posix maxErrors mainTable argv fuel with
  | none => none
  | some (v, errs) =>
    if (v 0).count > 0 then some .help
    else if (v 1).count > 0 then some .version
    else if errs ≠ [] then some (.errors errs)
    else some (.runs (makeConfig junk v))

/-- main.c:42, 62, 191: the exit status. -/
def MainOut.exitStatus : MainOut → Nat
  | .help => 0
  | .version => 0
  | .errors _ => 1
  | .runs _ => 0

/-- main.c:172-187: the text printed after `run()`. -/
def resultText (r : Result) : CStr :=
  c!"{\n    \"cpu_time\": " ++ showInt r.cpuTime ++
  c!",\n    \"real_time\": " ++ showInt r.realTime ++
  c!",\n    \"memory\": " ++ showInt r.memory ++
  c!",\n    \"signal\": " ++ showInt r.signal ++
  c!",\n    \"exit_code\": " ++ showInt r.exitCode ++
  c!",\n    \"error\": " ++ showInt r.error ++
  c!",\n    \"result\": " ++ showInt r.result ++
  c!"\n}"

end Judger
