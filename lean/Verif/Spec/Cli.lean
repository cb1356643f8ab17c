import Verif.Model.Config

/-!
# What a command line means

A small description of the command-line language, independent of how getopt and argtable go about it.
-/

set_option autoImplicit false

namespace Judger.Spec.Cli

/-- The options. -/
inductive Opt where
  | help | version
  | maxCpuTime | maxRealTime | maxMemory | memoryLimitCheckOnly | maxStack | maxProcessNumber | maxOutputSize
  | exePath | inputPath | outputPath | errorPath
  | args | env
  | logPath | seccompRuleName
  | uid | gid
deriving Repr, DecidableEq

/-- The name after `--`. -/
def Opt.name : Opt → CStr
  | .help => c!"help"
  | .version => c!"version"
  | .maxCpuTime => c!"max_cpu_time"
  | .maxRealTime => c!"max_real_time"
  | .maxMemory => c!"max_memory"
  | .memoryLimitCheckOnly => c!"memory_limit_check_only"
  | .maxStack => c!"max_stack"
  | .maxProcessNumber => c!"max_process_number"
  | .maxOutputSize => c!"max_output_size"
  | .exePath => c!"exe_path"
  | .inputPath => c!"input_path"
  | .outputPath => c!"output_path"
  | .errorPath => c!"error_path"
  | .args => c!"args"
  | .env => c!"env"
  | .logPath => c!"log_path"
  | .seccompRuleName => c!"seccomp_rule_name"
  | .uid => c!"uid"
  | .gid => c!"gid"

/-- What an option takes: nothing, an integer, or a text. -/
inductive Takes where
  | nothing | int | text
deriving Repr, DecidableEq

def Opt.takes : Opt → Takes
  | .help | .version => .nothing
  | .maxCpuTime | .maxRealTime | .maxMemory | .memoryLimitCheckOnly | .maxStack | .maxProcessNumber | .maxOutputSize
  | .uid | .gid => .int
  | .exePath | .inputPath | .outputPath | .errorPath | .args | .env | .logPath | .seccompRuleName => .text

/-- How often an option may be given. -/
def Opt.atMost : Opt → Nat
  | .args | .env => 255
  | _ => 1

/-- `n` may be used for option `o`: its name, or a prefix of its name that is a prefix of no other option's name. -/
def Calls (n : CStr) (o : Opt) : Prop := n = o.name ∨ (n <+: o.name ∧ ∀ o', n <+: o'.name → o' = o)

/-- What is found on a command line: an option with its value, or something that should not be there. -/
inductive Item where
  | opt (o : Opt) (v : Option CStr)
  | mistake
deriving Repr, DecidableEq

/-- A word that is not an option: it does not start with '-', or it is "-". -/
def Positional (w : CStr) : Prop := w.head? ≠ some '-' ∨ w = ['-']

/-- `Scan posix ws items`: the words `ws` (without the program name) read from left to right give `items`.  `posix` says whether
POSIXLY_CORRECT is set, in which case the options end at the first positional word.  (There is no rule for a word `-abc-`.) -/
inductive Scan (posix : Bool) : List CStr → List Item → Prop
  | nil : Scan posix [] []
  /-- `--name=value` -/
  | value (n v : CStr) (o : Opt) (ws : List CStr) (is : List Item) : Calls n o → o.takes ≠ .nothing → Scan posix ws is →
      Scan posix (('-' :: '-' :: (n ++ '=' :: v)) :: ws) (.opt o (some v) :: is)
  /-- `--name value` -/
  | spaced (n v : CStr) (o : Opt) (ws : List CStr) (is : List Item) : Calls n o → o.takes ≠ .nothing → Scan posix ws is →
      Scan posix (('-' :: '-' :: n) :: v :: ws) (.opt o (some v) :: is)
  /-- `--help`, `--version` -/
  | flag (n : CStr) (o : Opt) (ws : List CStr) (is : List Item) : Calls n o → o.takes = .nothing → Scan posix ws is →
      Scan posix (('-' :: '-' :: n) :: ws) (.opt o none :: is)
  /-- `--name` at the end of the line, but the option takes a value. -/
  | missing (n : CStr) (o : Opt) : Calls n o → o.takes ≠ .nothing → Scan posix [('-' :: '-' :: n)] [.mistake]
  /-- `--something`, which is no option, or `--help=something`. -/
  | unknown (b : CStr) (ws : List CStr) (is : List Item) : b ≠ [] → (∀ o, ¬Calls b o) →
      (∀ n v o, b = n ++ '=' :: v → Calls n o → o.takes = .nothing) → Scan posix ws is →
      Scan posix (('-' :: '-' :: b) :: ws) (.mistake :: is)
  /-- `-abc` -/
  | letters (s : CStr) (ws : List CStr) (is : List Item) : s ≠ [] → '-' ∉ s → Scan posix ws is →
      Scan posix (('-' :: s) :: ws) (.mistake :: is)
  /-- `-abc-something`: unknown letters, then `--something`. -/
  | lettersLong (s b : CStr) (ws : List CStr) (is : List Item) : s ≠ [] → '-' ∉ s → b ≠ [] →
      Scan posix (('-' :: '-' :: b) :: ws) is → Scan posix (('-' :: (s ++ '-' :: b)) :: ws) (.mistake :: is)
  /-- A positional word. -/
  | positional (w : CStr) (ws : List CStr) (is : List Item) : Positional w → posix = false → Scan posix ws is →
      Scan posix (w :: ws) (.mistake :: is)
  /-- A positional word ends the options. -/
  | positionalEnd (w : CStr) (ws : List CStr) : Positional w → posix = true → Scan posix (w :: ws) [.mistake]
  /-- `--` ends the options; what follows it is positional. -/
  | dashes (ws : List CStr) : Scan posix (['-', '-'] :: ws) (if ws = [] then [] else [.mistake])

/-! ## Integers -/

/-- The value of a digit. -/
def digit? : Char → Option Nat
  | '0' => some 0 | '1' => some 1 | '2' => some 2 | '3' => some 3 | '4' => some 4
  | '5' => some 5 | '6' => some 6 | '7' => some 7 | '8' => some 8 | '9' => some 9
  | 'a' => some 10 | 'b' => some 11 | 'c' => some 12 | 'd' => some 13 | 'e' => some 14 | 'f' => some 15
  | 'A' => some 10 | 'B' => some 11 | 'C' => some 12 | 'D' => some 13 | 'E' => some 14 | 'F' => some 15
  | _ => none

/-- `Numeral base ds n`: the digits `ds`, at least one, write `n` in this base. -/
inductive Numeral (base : Nat) : CStr → Nat → Prop
  | one (c : Char) (d : Nat) : digit? c = some d → d < base → Numeral base [c] d
  | more (ds : CStr) (n : Nat) (c : Char) (d : Nat) : Numeral base ds n → digit? c = some d → d < base →
      Numeral base (ds ++ [c]) (n * base + d)

/-- White space. -/
def Blank (s : CStr) : Prop := ∀ c ∈ s, c ∈ [' ', '\t', '\n', '\r', '\x0b', '\x0c']

/-- A sign and its value. -/
def Sign (s : CStr) (k : Int) : Prop := (s = [] ∧ k = 1) ∨ (s = ['+'] ∧ k = 1) ∨ (s = ['-'] ∧ k = -1)

/-- A base prefix. -/
def Prefix (s : CStr) (base : Nat) : Prop :=
  (s = [] ∧ base = 10) ∨ (s ∈ [c!"0x", c!"0X"] ∧ base = 16) ∨ (s ∈ [c!"0o", c!"0O"] ∧ base = 8) ∨
    (s ∈ [c!"0b", c!"0B"] ∧ base = 2)

/-- A multiplier. -/
def Suffix (s : CStr) (k : Int) : Prop :=
  (s = [] ∧ k = 1) ∨ (s ∈ [c!"KB", c!"Kb", c!"kB", c!"kb"] ∧ k = 1024) ∨
    (s ∈ [c!"MB", c!"Mb", c!"mB", c!"mb"] ∧ k = 1048576) ∨ (s ∈ [c!"GB", c!"Gb", c!"gB", c!"gb"] ∧ k = 1073741824)

/-- `IntText t n`: the text `t` denotes the integer `n`. -/
def IntText (t : CStr) (n : Int) : Prop :=
  ∃ pre sg pf ds sf post k base m f, t = pre ++ (sg ++ (pf ++ (ds ++ (sf ++ post)))) ∧ Blank pre ∧ Blank post ∧
    Sign sg k ∧ Prefix pf base ∧ Numeral base ds m ∧ Suffix sf f ∧ n = k * m * f

/-- A looser reading: after a base prefix there may be more white space, a second sign and, in base 16, a second `0x`. -/
def LooseIntText (t : CStr) (n : Int) : Prop :=
  IntText t n ∨
  ∃ pre sg pf pre' sg' pf' ds sf post k k' base m f,
    t = pre ++ (sg ++ (pf ++ (pre' ++ (sg' ++ (pf' ++ (ds ++ (sf ++ post))))))) ∧ Blank pre ∧ Blank pre' ∧ Blank post ∧
    Sign sg k ∧ Sign sg' k' ∧ Prefix pf base ∧ pf ≠ [] ∧ (pf' = [] ∨ (base = 16 ∧ pf' ∈ [c!"0x", c!"0X"])) ∧
    Numeral base ds m ∧ Suffix sf f ∧ n = k * (k' * m) * f

/-- A text with a minus sign before and after the base prefix, and digits that write at least 2^63. -/
def TwiceNegative (t : CStr) : Prop :=
  ∃ pre pf pre' pf' ds e base m, t = pre ++ ('-' :: (pf ++ (pre' ++ ('-' :: (pf' ++ (ds ++ e)))))) ∧ Blank pre ∧ Blank pre' ∧
    Prefix pf base ∧ pf ≠ [] ∧ (pf' = [] ∨ (base = 16 ∧ pf' ∈ [c!"0x", c!"0X"])) ∧ Numeral base ds m ∧ 9223372036854775808 ≤ m

/-! ## Meaning -/

/-- The values given for an option, in order. -/
def given (o : Opt) : List Item → List CStr
  | [] => []
  | .opt o' (some v) :: is => if o' = o then v :: given o is else given o is
  | _ :: is => given o is

/-- How often an option is given. -/
def times (o : Opt) : List Item → Nat
  | [] => 0
  | .opt o' _ :: is => if o' = o then times o is + 1 else times o is
  | _ :: is => times o is

/-- A command line without mistakes: options only, values not empty, integers readable and within `int`, no option given too
often, and an executable. -/
structure Fine (is : List Item) : Prop where
  noMistake : Item.mistake ∉ is
  filled : ∀ o v, Item.opt o (some v) ∈ is → v ≠ []
  ints : ∀ o v, Item.opt o (some v) ∈ is → o.takes = .int → ∃ n, LooseIntText v n ∧ IsInt n
  often : ∀ o, times o is ≤ o.atMost
  exe : 0 < times .exePath is

/-- Option `o` is given with the integer `n`, or not given and `n` is the default. -/
def IntIs (o : Opt) (is : List Item) (dflt n : Int) : Prop :=
  (∃ t, given o is = [t] ∧ LooseIntText t n) ∨ (given o is = [] ∧ n = dflt)

/-- Option `o` is given with the text `t`, or not given and `t` is the default. -/
def TextIs (o : Opt) (is : List Item) (dflt t : CStr) : Prop := given o is = [t] ∨ (given o is = [] ∧ t = dflt)

/-- All of the configuration but the two lists. -/
structure MeansScalars (is : List Item) (c : Config) : Prop where
  cpu : IntIs .maxCpuTime is UNLIMITED c.maxCpuTime
  real : IntIs .maxRealTime is UNLIMITED c.maxRealTime
  mem : IntIs .maxMemory is UNLIMITED c.maxMemory
  check : ∃ n, IntIs .memoryLimitCheckOnly is 0 n ∧ c.memoryLimitCheckOnly = if n = 0 then 0 else 1
  stack : IntIs .maxStack is (16 * 1024 * 1024) c.maxStack
  nproc : IntIs .maxProcessNumber is UNLIMITED c.maxProcessNumber
  out : IntIs .maxOutputSize is UNLIMITED c.maxOutputSize
  exe : given .exePath is = [c.exePath]
  input : ∃ t, TextIs .inputPath is c!"/dev/stdin" t ∧ c.inputPath = some t
  output : ∃ t, TextIs .outputPath is c!"/dev/stdout" t ∧ c.outputPath = some t
  error : ∃ t, TextIs .errorPath is c!"/dev/stderr" t ∧ c.errorPath = some t
  log : TextIs .logPath is c!"judger.log" c.logPath
  seccomp : (∃ t, given .seccompRuleName is = [t] ∧ c.seccompRuleName = some t) ∨
    (given .seccompRuleName is = [] ∧ c.seccompRuleName = none)
  uid : ∃ n, IntIs .uid is 65534 n ∧ c.uid = castU32 n
  gid : ∃ n, IntIs .gid is 65534 n ∧ c.gid = castU32 n

/-- The configuration the command line asks for. -/
structure Means (is : List Item) (c : Config) : Prop extends MeansScalars is c where
  args : c.args = c.exePath :: given .args is
  env : c.env = given .env is

/-- Where the configuration keeps the value of an integer option, if it keeps it as it is. -/
def intField : Opt → Option (Config → Int)
  | .maxCpuTime => some (·.maxCpuTime)
  | .maxRealTime => some (·.maxRealTime)
  | .maxMemory => some (·.maxMemory)
  | .maxStack => some (·.maxStack)
  | .maxProcessNumber => some (·.maxProcessNumber)
  | .maxOutputSize => some (·.maxOutputSize)
  | _ => none

/-- Where the configuration keeps the value of a text option. -/
def textField : Opt → Option (Config → Option CStr)
  | .exePath => some fun c => some c.exePath
  | .inputPath => some (·.inputPath)
  | .outputPath => some (·.outputPath)
  | .errorPath => some (·.errorPath)
  | .logPath => some fun c => some c.logPath
  | .seccompRuleName => some (·.seccompRuleName)
  | _ => none

/-- A word `-abc-`: '-', letters other than '-', and a final '-'. -/
def Hanging (w : CStr) : Prop := ∃ s, s ≠ [] ∧ '-' ∉ s ∧ w = '-' :: (s ++ ['-'])

end Judger.Spec.Cli
