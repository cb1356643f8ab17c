import Verif.Spec.Child
import Verif.Spec.Cli

/-!
# What the judged program should find, given a command line
-/

set_option autoImplicit false

namespace Judger.Spec.Cli

/-- Limit `r` of the program is what option `o` asks for: the value `f n` if the option is given with the integer `n`, as inherited if it is
not given or given as -1. -/
def LimitFrom (o : Opt) (is : List Item) (p q : Proc) (r : Res) (f : Int → Int) : Prop :=
  (∃ t n, given o is = [t] ∧ LooseIntText t n ∧ n ≠ -1 ∧ q.limits r = ⟨f n, f n⟩) ∨
  ((given o is = [] ∨ ∃ t, given o is = [t] ∧ LooseIntText t (-1)) ∧ q.limits r = p.limits r)

/-- The option is given as 0, or not given. -/
def Off (o : Opt) (is : List Item) : Prop := given o is = [] ∨ ∃ t, given o is = [t] ∧ LooseIntText t 0

/-- Ids from an option: 65534 if it is not given, as inherited if it is given as -1, else the given number modulo 2^32. -/
def IdFrom (o : Opt) (is : List Item) (old new : Ids) : Prop :=
  (given o is = [] ∧ new = ⟨65534, 65534, 65534⟩) ∨
  (∃ t, given o is = [t] ∧ LooseIntText t (-1) ∧ new = old) ∨
  (∃ t n, given o is = [t] ∧ LooseIntText t n ∧ n ≠ -1 ∧ new = ⟨n % 4294967296, n % 4294967296, n % 4294967296⟩)

/-- What the program started with words `is` finds, apart from its argument vector: `p` is the forked child, `q` the process in which the
program starts. -/
structure Finds (is : List Item) (p q : Proc) (path : CStr) (envp : List CStr) : Prop where
  program : given .exePath is = [path]
  env : envp = given .env is
  cpu : LimitFrom .maxCpuTime is p q .cpu (· / 1000 + 1)
  memory : Off .memoryLimitCheckOnly is → LimitFrom .maxMemory is p q .as (2 * ·)
  memoryOnlyChecked : ¬Off .memoryLimitCheckOnly is → q.limits .as = p.limits .as
  stack : (∃ t n, given .maxStack is = [t] ∧ LooseIntText t n ∧ q.limits .stack = ⟨n, n⟩) ∨
    (given .maxStack is = [] ∧ q.limits .stack = ⟨16777216, 16777216⟩)
  nproc : LimitFrom .maxProcessNumber is p q .nproc id
  fsize : LimitFrom .maxOutputSize is p q .fsize id
  stdin : ∃ t, TextIs .inputPath is c!"/dev/stdin" t ∧ StreamIs q p.ofds.length 0 ⟨t, true, false, false⟩
  stdout : ∃ t, TextIs .outputPath is c!"/dev/stdout" t ∧ StreamIs q p.ofds.length 1 ⟨t, false, true, true⟩
  stderr : ∃ t, TextIs .errorPath is c!"/dev/stderr" t ∧ StreamIs q p.ofds.length 2 ⟨t, false, true, true⟩
  uid : IdFrom .uid is p.uid q.uid
  gid : IdFrom .gid is p.gid q.gid
  groups : q.groups = [q.gid.e] ∨ (q.groups = p.groups ∧ ∃ t, given .gid is = [t] ∧ LooseIntText t (-1))
  unfiltered : given .seccompRuleName is = [] → q.filters = p.filters
  filtered : ∀ t, given .seccompRuleName is = [t] → t ∈ profileNames ∧ q.noNewPrivs = true ∧ ∃ f, q.filters = f :: p.filters

end Judger.Spec.Cli
