import Verif.Spec.Cli
import Verif.Spec.Shell
import Verif.Model.Node

/-!
# What a Node call asks for
-/

set_option autoImplicit false

namespace Judger.Spec.Node

open Judger.Node Judger.Spec.Cli

/-- A well-typed call: for each option a number or a text, or nothing; the two lists, or nothing. -/
structure Request where
  int : Opt → Option Int
  text : Opt → Option CStr
  args : Option (List CStr)
  env : Option (List CStr)

/-- The options. -/
def options : List Opt :=
  [.maxCpuTime, .maxRealTime, .maxMemory, .memoryLimitCheckOnly, .maxStack, .maxProcessNumber, .maxOutputSize, .exePath,
   .inputPath, .outputPath, .errorPath, .args, .env, .logPath, .seccompRuleName, .uid, .gid]

/-- The value of the property for an option. -/
def Request.value (q : Request) (o : Opt) : JsVal :=
  match o with
  | .args => q.args.elim .undefined fun ss => .array (ss.map .string)
  | .env => q.env.elim .undefined fun ss => .array (ss.map .string)
  | o => if o.takes = .int then (q.int o).elim .undefined .number else (q.text o).elim .undefined .string

/-- The JavaScript object: each option's value under the option's name. -/
def Request.get (q : Request) (key : CStr) : JsVal :=
  match options.find? (fun o => o.name = key) with
  | some o => q.value o
  | none => .undefined

/-- Nothing is given for an option of another kind. -/
structure Request.Proper (q : Request) : Prop where
  ints : ∀ o, o.takes ≠ .int → q.int o = none
  texts : ∀ o, o.takes ≠ .text ∨ o = .args ∨ o = .env → q.text o = none

/-- A value that is not what an option takes: a number, a text, a list of texts, or nothing. -/
def WrongType (o : Opt) (v : JsVal) : Prop :=
  v ≠ .undefined ∧ v ≠ .null ∧
    match o with
    | .args | .env => ¬∃ ss : List CStr, v = .array (ss.map .string)
    | o => if o.takes = .int then ¬∃ n, v = .number n else ¬∃ s, v = .string s

/-- All the texts of a request. -/
def Request.HasText (q : Request) (s : CStr) : Prop :=
  (∃ o, o.takes = .text ∧ q.text o = some s) ∨ s ∈ q.args.getD [] ∨ s ∈ q.env.getD []

/-- The same with every text in quotes, as a caller would write it who knows that a shell reads it. -/
def Request.quoted (q : Request) : Request where
  int := q.int
  text := fun o => (q.text o).map Shell.quote
  args := q.args.map (·.map Shell.quote)
  env := q.env.map (·.map Shell.quote)

/-- The configuration described. -/
def Request.wanted (q : Request) : Config where
  maxCpuTime := (q.int .maxCpuTime).getD (-1)
  maxRealTime := (q.int .maxRealTime).getD (-1)
  maxMemory := (q.int .maxMemory).getD (-1)
  maxStack := (q.int .maxStack).getD 16777216
  maxProcessNumber := (q.int .maxProcessNumber).getD (-1)
  maxOutputSize := (q.int .maxOutputSize).getD (-1)
  memoryLimitCheckOnly := if (q.int .memoryLimitCheckOnly).getD 0 = 0 then 0 else 1
  exePath := (q.text .exePath).getD []
  inputPath := some ((q.text .inputPath).getD c!"/dev/stdin")
  outputPath := some ((q.text .outputPath).getD c!"/dev/stdout")
  errorPath := some ((q.text .errorPath).getD c!"/dev/stderr")
  args := (q.text .exePath).getD [] :: q.args.getD []
  env := q.env.getD []
  logPath := (q.text .logPath).getD c!"judger.log"
  seccompRuleName := q.text .seccompRuleName
  uid := castU32 ((q.int .uid).getD 65534)
  gid := castU32 ((q.int .gid).getD 65534)

/-- It names the executable, its integers are C ints, its texts are not empty and contain no NUL, its lists are not longer than
the judger allows. -/
structure Request.Ok (q : Request) : Prop where
  exe : ∃ s, q.text .exePath = some s
  ints : ∀ o n, q.int o = some n → IsInt n
  filled : ∀ s, q.HasText s → s ≠ []
  noNul : ∀ s, q.HasText s → '\x00' ∉ s
  args : (q.args.getD []).length ≤ 255
  env : (q.env.getD []).length ≤ 255

end Judger.Spec.Node
