import Verif.Spec.Cli

/-!
# What should be said about a wrong command line, and what the help text should say

Independent of getopt and argtable: a reading of the command line that keeps the words, the list of its mistakes, and one line of text
for each mistake.
-/

set_option autoImplicit false

namespace Judger.Spec.Cli

/-! ## Reading -/

/-- What is found on a command line.  The word `w` is the one to be quoted in a message. -/
inductive Finding where
  | option (o : Opt) (v : Option CStr) (w : CStr)
  /-- `--something`, which is no option -/
  | unknown (w : CStr)
  /-- a letter of `-abc` -/
  | letter (c : Char)
  /-- an option at the end of the line without its value -/
  | incomplete (w : CStr)
deriving Repr, DecidableEq

/-- `Long w b ws f ws'`: the word `w`, which ends in `-b` and is followed by `ws`, gives `f` and leaves `ws'` to be read. -/
inductive Long (w : CStr) : CStr → List CStr → Finding → List CStr → Prop
  | value (n v : CStr) (o : Opt) (ws : List CStr) : Calls n o → o.takes ≠ .nothing → Long w (n ++ '=' :: v) ws (.option o (some v) w) ws
  | spaced (n v : CStr) (o : Opt) (ws : List CStr) : Calls n o → o.takes ≠ .nothing → Long w n (v :: ws) (.option o (some v) v) ws
  | flag (n : CStr) (o : Opt) (ws : List CStr) : Calls n o → o.takes = .nothing → Long w n ws (.option o none w) ws
  | missing (n : CStr) (o : Opt) : Calls n o → o.takes ≠ .nothing → Long w n [] (.incomplete w) []
  | unknown (b : CStr) (ws : List CStr) : (∀ o, ¬Calls b o) → (∀ n v o, b = n ++ '=' :: v → Calls n o → o.takes = .nothing) →
      Long w b ws (.unknown w) ws

/-- `Reads posix ws fs rest`: the words `ws` give `fs`, and the positional words are `rest`. -/
inductive Reads (posix : Bool) : List CStr → List Finding → List CStr → Prop
  | nil : Reads posix [] [] []
  /-- `--name...`, or `-abc-name...` -/
  | long (s b : CStr) (ws ws' : List CStr) (f : Finding) (fs : List Finding) (rest : List CStr) : '-' ∉ s → b ≠ [] →
      Long ('-' :: (s ++ '-' :: b)) b ws f ws' → Reads posix ws' fs rest →
      Reads posix (('-' :: (s ++ '-' :: b)) :: ws) (s.map .letter ++ f :: fs) rest
  /-- `-abc` -/
  | letters (s : CStr) (ws : List CStr) (fs : List Finding) (rest : List CStr) : s ≠ [] → '-' ∉ s → Reads posix ws fs rest →
      Reads posix (('-' :: s) :: ws) (s.map .letter ++ fs) rest
  | positional (w : CStr) (ws : List CStr) (fs : List Finding) (rest : List CStr) : Positional w → posix = false → Reads posix ws fs rest →
      Reads posix (w :: ws) fs (w :: rest)
  | positionalEnd (w : CStr) (ws : List CStr) : Positional w → posix = true → Reads posix (w :: ws) [] (w :: ws)
  | dashes (ws : List CStr) : Reads posix (['-', '-'] :: ws) [] ws

/-! ## Mistakes -/

inductive Mistake where
  /-- a positional word -/
  | unexpected (w : CStr)
  | unknown (w : CStr)
  | letter (c : Char)
  /-- no value, or an empty one -/
  | noValue (w : CStr)
  | tooOften (o : Opt) (v : CStr)
  | notInteger (o : Opt) (v : CStr)
  | tooLarge (o : Opt) (v : CStr)
  | absent (o : Opt)
deriving Repr, DecidableEq

/-- `Judged n o v ms ok`: option `o`, accepted `n` times so far, is given with `v`.  `ms` is wrong with that; `ok` says whether it is
accepted. -/
inductive Judged (n : Nat) (o : Opt) : Option CStr → List Mistake → Bool → Prop
  | tooOften (v : Option CStr) : n = o.atMost → Judged n o v [.tooOften o (v.getD [])] false
  | accepted (v : Option CStr) : n < o.atMost → (o.takes = .int → ∃ t k, v = some t ∧ LooseIntText t k ∧ IsInt k) → Judged n o v [] true
  | notInteger (t : CStr) : n < o.atMost → o.takes = .int → (∀ k, ¬LooseIntText t k) → Judged n o (some t) [.notInteger o t] false
  | tooLarge (t : CStr) (k : Int) : n < o.atMost → o.takes = .int → LooseIntText t k → ¬IsInt k →
      Judged n o (some t) [.tooLarge o t] false

/-- One more accepted. -/
def bump (o : Opt) (seen : Opt → Nat) : Opt → Nat := fun o' => if o' = o then seen o + 1 else seen o'

/-- The mistakes in what was found, in order; `seen` says how often each option has been accepted before. -/
inductive Mistakes : (Opt → Nat) → List Finding → List Mistake → Prop
  | nil (seen : Opt → Nat) : Mistakes seen [] []
  | option (seen : Opt → Nat) (o : Opt) (v : Option CStr) (w : CStr) (fs : List Finding) (ms : List Mistake) (ok : Bool) (rest : List Mistake) :
      Judged (seen o) o v ms ok → Mistakes (if ok then bump o seen else seen) fs rest →
      Mistakes seen (.option o v w :: fs) ((if v = some [] then [.noValue w] else []) ++ ms ++ rest)
  | unknown (seen : Opt → Nat) (w : CStr) (fs : List Finding) (rest : List Mistake) : Mistakes seen fs rest →
      Mistakes seen (.unknown w :: fs) (.unknown w :: rest)
  | letter (seen : Opt → Nat) (c : Char) (fs : List Finding) (rest : List Mistake) : Mistakes seen fs rest →
      Mistakes seen (.letter c :: fs) (.letter c :: rest)
  | incomplete (seen : Opt → Nat) (w : CStr) (fs : List Finding) (rest : List Mistake) : Mistakes seen fs rest →
      Mistakes seen (.incomplete w :: fs) (.noValue w :: rest)

/-- All mistakes: those of options, then positional words; a missing executable is only mentioned when there is nothing else. -/
def Wrongs (posix : Bool) (ws : List CStr) (ms : List Mistake) : Prop :=
  ∃ fs rest os, Reads posix ws fs rest ∧ Mistakes (fun _ => 0) fs os ∧
    ((os ++ rest.map .unexpected ≠ [] ∧ ms = os ++ rest.map .unexpected) ∨
     (os ++ rest.map .unexpected = [] ∧ (∀ v w, .option .exePath v w ∉ fs) ∧ ms = [.absent .exePath]) ∨
     (os ++ rest.map .unexpected = [] ∧ (∃ v w, .option .exePath v w ∈ fs) ∧ ms = []))

/-! ## Texts -/

/-- `--name`, `--name=<n>` or `--name=<str>` -/
def Opt.usage (o : Opt) : CStr :=
  c!"--" ++ o.name ++
    match o.takes with
    | .nothing => []
    | .int => c!"=<n>"
    | .text => c!"=<str>"

/-- An option with its value, at most 198 characters of it. -/
def withValue (o : Opt) (v : CStr) : CStr := (c!"--" ++ o.name ++ ['='] ++ v).take 198

def Mistake.text : Mistake → CStr
  | .unexpected w => c!"unexpected argument \"" ++ w ++ c!"\""
  | .unknown w => c!"invalid option \"" ++ w ++ c!"\""
  | .letter c => c!"invalid option \"-" ++ [c] ++ c!"\""
  | .noValue w => c!"option \"" ++ w ++ c!"\" requires an argument"
  | .tooOften o v => if o.takes = .nothing then c!"extraneous option " ++ o.usage else c!"excess option " ++ withValue o v
  | .notInteger o v => c!"invalid argument \"" ++ v ++ c!"\" to option " ++ o.usage
  | .tooLarge o v => c!"integer overflow at option " ++ o.usage ++ c!" (" ++ v ++ c!" is too large)"
  | .absent o => c!"missing option " ++ o.usage

/-- One line of the report. -/
def reportLine (t : CStr) : CStr := c!"libjudger.so: " ++ t ++ c!"\n"

/-- The lines for these mistakes: at most ten, the last one saying so if there are more. -/
def reportLines (ms : List Mistake) : List CStr :=
  if ms.length ≤ 10 then ms.map Mistake.text else (ms.take 9).map Mistake.text ++ [c!"too many errors to display"]

/-- The report. -/
def report (ms : List Mistake) : CStr :=
  (reportLines ms).flatMap reportLine ++ c!"Try 'libjudger.so --help' for more information.\n"

/-- A letter that is a control character 1 to 5. -/
def Mistake.Control : Mistake → Prop
  | .letter c => 1 ≤ c.toNat ∧ c.toNat ≤ 5
  | _ => False

/-! ## Help -/

/-- The options in the order of the help text. -/
def helpOrder : List Opt :=
  [.help, .version, .maxCpuTime, .maxRealTime, .maxMemory, .memoryLimitCheckOnly, .maxStack, .maxProcessNumber, .maxOutputSize,
   .exePath, .inputPath, .outputPath, .errorPath, .args, .env, .logPath, .seccompRuleName, .uid, .gid]

/-- What the help text says about an option. -/
def Opt.about : Opt → CStr
  | .help => c!"Display This Help And Exit"
  | .version => c!"Display Version Info And Exit"
  | .maxCpuTime => c!"Max CPU Time (ms)"
  | .maxRealTime => c!"Max Real Time (ms)"
  | .maxMemory => c!"Max Memory (byte)"
  | .memoryLimitCheckOnly => c!"only check memory usage, do not setrlimit (default False)"
  | .maxStack => c!"Max Stack (byte, default 16M)"
  | .maxProcessNumber => c!"Max Process Number"
  | .maxOutputSize => c!"Max Output Size (byte)"
  | .exePath => c!"Exe Path"
  | .inputPath => c!"Input Path"
  | .outputPath => c!"Output Path"
  | .errorPath => c!"Error Path"
  | .args => c!"Arg"
  | .env => c!"Env"
  | .logPath => c!"Log Path"
  | .seccompRuleName => c!"Seccomp Rule Name"
  | .uid => c!"UID (default 65534)"
  | .gid => c!"GID (default 65534)"

/-- An option in the usage line: the executable is required; brackets mean optional, dots mean repeatable. -/
def Opt.synopsis (o : Opt) : CStr :=
  if o = .exePath then [' '] ++ o.usage
  else c!" [" ++ o.usage ++ if o.atMost = 1 then c!"]" else c!"]..."

/-- An option in the list: its usage in a column of 25. -/
def Opt.helpLine (o : Opt) : CStr := c!"  " ++ o.usage ++ List.replicate (25 - o.usage.length) ' ' ++ c!" " ++ o.about ++ c!"\n"

/-- The help text. -/
def help : CStr := c!"Usage: libjudger.so" ++ helpOrder.flatMap Opt.synopsis ++ c!"\n\n" ++ helpOrder.flatMap Opt.helpLine

end Judger.Spec.Cli
