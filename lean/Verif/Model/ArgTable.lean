import Verif.Model.Getopt

/-!
# argtable3: the option table, integer conversion, `arg_parse`

Modelled: the entry kinds main.c uses (`arg_lit`, `arg_int`, `arg_str`, `arg_end`) and `arg_parse`.  What is done
with allocated memory is in `Model/Storage`.  Not modelled: a failing allocation (`xmalloc` ends the process, argtable3.c:328-362), the entry kinds main.c does not use (dbl, file, date, rex, cmd), and the help
texts (`arg_print_syntax`, `arg_print_glossary`).  The locale is "C" (main.c never calls `setlocale`).
-/

set_option autoImplicit false

namespace Judger

/-! ## Characters -/

/-- `isspace` in the "C" locale. -/
def isSpaceC (c : Char) : Bool :=
  c = ' ' || c = '\t' || c = '\n' || c = '\r' || c.toNat = 11 || c.toNat = 12

/-- `toupper` in the "C" locale. -/
def toUpperC (c : Char) : Char :=
  if 97 ≤ c.toNat ∧ c.toNat ≤ 122 then Char.ofNat (c.toNat - 32) else c

/-- The value of `c` as a digit of bases up to 36, as `strtol` reads it. -/
def digitValue (c : Char) : Option Nat :=
  if 48 ≤ c.toNat ∧ c.toNat ≤ 57 then some (c.toNat - 48)
  else if 97 ≤ c.toNat ∧ c.toNat ≤ 122 then some (c.toNat - 87)
  else if 65 ≤ c.toNat ∧ c.toNat ≤ 90 then some (c.toNat - 55)
  else none

/-- `c` is a digit in this base. -/
def isDigitIn (base : Nat) (c : Char) : Bool :=
  match digitValue c with
  | some d => d < base
  | none => false

/-! ## Integer conversion -/

/-- The number written by a list of digits, continuing from `acc`. -/
def digitsValue (base : Nat) : Nat → CStr → Nat
  | acc, [] => acc
  | acc, c :: cs => digitsValue base (acc * base + (digitValue c).getD 0) cs

/-- An optional sign: (is it '-'?, the rest). -/
def takeSign : CStr → Bool × CStr
  | '-' :: r => (true, r)
  | '+' :: r => (false, r)
  | r => (false, r)

/-- The optional `0x` that `strtol` skips in base 16 when a hexadecimal digit follows. -/
def skipHexPrefix (base : Nat) (s : CStr) : CStr :=
  match s with
  | '0' :: x :: d :: r =>
    if base = 16 ∧ (x = 'x' ∨ x = 'X') ∧ isDigitIn 16 d then d :: r else s
  | _ => s

/-- `long` clamping as done by `strtol` on overflow. -/
def clampLong (x : Int) : Int := if LONG_MAX < x then LONG_MAX else if x < LONG_MIN then LONG_MIN else x

/-- `strtol(s, &end, base)` (C library, before C23's binary prefix): the value and the characters from `end` on; `none` when
`end == s`. -/
def strtol (s : CStr) (base : Nat) : Option (Int × CStr) :=
  let t := s.dropWhile isSpaceC
  let (neg, t) := takeSign t
  let t := skipHexPrefix base t
  let ds := t.takeWhile (isDigitIn base)
  if ds = [] then none
  else
    let v : Int := digitsValue base 0 ds
    some (clampLong (if neg then -v else v), t.dropWhile (isDigitIn base))

/-- The conversion of a product to `long` as gcc compiles it (modulo 2^64); a C program doing so has undefined behaviour
when it matters, see `Props/Cli` C70. -/
def castLong (x : Int) : Int := (x + 9223372036854775808) % 18446744073709551616 - 9223372036854775808

/-- argtable3.c:3086-3136 `strtol0X(str, &end, X, base)`; `none` when `*endptr == str`. -/
def strtol0X (str : CStr) (X : Char) (base : Nat) : Option (Int × CStr) :=
  let p := str.dropWhile isSpaceC                                                        -- 3092-3093
  let (neg, p) := takeSign p                                                             -- 3097-3109
  match p with
  | '0' :: x :: r =>
    if toUpperC x = toUpperC X then                                                        -- 3113-3123
      match strtol r base with                                                           -- 3127-3132
      | some (v, e) => some (castLong (if neg then -1 * v else v), e)                      -- 3135
      | none => none
    else none
  | _ => none

/-- Signed `long` multiplication: undefined when the mathematical product is not a `long`. -/
def mulLong (a b : Int) : CRes Int := if IsLong (a * b) then .ok (a * b) else .ub

/-- argtable3.c:3135, the expression `s * val` as the C standard has it; `none` when it is not reached. -/
def strtol0XProduct (str : CStr) (X : Char) (base : Nat) : Option (CRes Int) :=
  let p := str.dropWhile isSpaceC
  let (neg, p) := takeSign p
  match p with
  | '0' :: x :: r =>
    if toUpperC x = toUpperC X then
      match strtol r base with
      | some (v, _) => some (mulLong (if neg then -1 else 1) v)
      | none => none
    else none
  | _ => none

/-- argtable3.c:3140-3165 `detectsuffix`. -/
def detectsuffix : CStr → CStr → Bool
  | [], [] => true                                                                       -- 3146-3147
  | a :: as, b :: bs => if toUpperC a = toUpperC b then detectsuffix as bs else false      -- 3142, 3156-3157
  | [], _ :: _ => false
  | as, [] => as.all isSpaceC                                                            -- 3160-3164

/-- argtable3.c:79, the error codes of the scan and check functions, argtable3.h:159, those of `arg_end`, and `optopt` for
an unknown short option (argtable3.c:5225). -/
inductive ErrCode where
  | mincount | maxcount | badint | overflow
  | elimit | enomatch | elongopt | emissarg
  | badShort (c : Char)
deriving Repr, DecidableEq

/-- argtable3.c:3182-3199: the four conversions tried in turn. -/
def convertInt (argval : CStr) : Option (Int × CStr) :=
  match strtol0X argval 'X' 16 with
  | some r => some r
  | none =>
    match strtol0X argval 'O' 8 with
    | some r => some r
    | none =>
      match strtol0X argval 'B' 2 with
      | some r => some r
      | none => strtol argval 10

/-- argtable3.c:3208-3225: one suffix; `m` is its multiplier.  `val` when the multiplication stays in range. -/
def applySuffix (val : Int) (m : Int) : Except ErrCode Int :=
  if val > Int.tdiv INT_MAX m ∨ val < Int.tdiv INT_MIN m then .error .overflow else .ok (val * m)

/-- argtable3.c:3178-3232, the value branch of `arg_int_scanfn`: the error code, or the value stored. -/
def scanIntText (argval : CStr) : Except ErrCode Int :=
  match convertInt argval with
  | none => .error .badint                                                               -- 3195
  | some (val, e) =>
    let big := val > INT_MAX ∨ val < INT_MIN                                              -- 3203-3204
    let res : Except ErrCode Int :=
      if detectsuffix e c!"KB" then applySuffix val 1024                                   -- 3208-3213
      else if detectsuffix e c!"MB" then applySuffix val 1048576                            -- 3214-3219
      else if detectsuffix e c!"GB" then applySuffix val 1073741824                         -- 3220-3225
      else if !detectsuffix e [] then .error .badint                                       -- 3226-3227
      else .ok val
    match res with
    | .error c => .error c
    | .ok v => if big then .error .overflow else .ok (castInt v)                            -- 3230-3231

/-! ## Table entries -/

/-- The kinds of entries main.c uses. -/
inductive Kind where
  | lit | int | str
deriving Repr, DecidableEq

/-- The constant part of `struct arg_hdr` (argtable3.h:95-108) as set by `arg_litn`, `arg_intn`, `arg_strn`. -/
structure ArgEntry where
  longopts : Option CStr
  shortopts : Option CStr := none
  kind : Kind
  mincount : Nat
  maxcount : Nat
deriving Repr, DecidableEq

/-- The mutable part of an entry: `count`, and the stored values of `ival[]` or `sval[]`. -/
structure Slot where
  count : Nat := 0
  ints : List Int := []
  strs : List CStr := []
deriving Repr, DecidableEq

/-- The scan functions argtable3.c:3363-3372 (`lit`), 3167-3236 (`int`), 4555-4572 (`str`): the new slot and the error
code, if any.  A NULL value only counts; it does not occur for the entries of main.c (`has_arg` is 1 for `int` and `str`). -/
def scan (e : ArgEntry) (s : Slot) (argval : Option CStr) : Slot × Option ErrCode :=
  match e.kind with
  | .lit => if s.count < e.maxcount then ({ s with count := s.count + 1 }, none) else (s, some .maxcount)
  | .int =>
    if s.count = e.maxcount then (s, some .maxcount)
    else
      match argval with
      | none => ({ s with count := s.count + 1 }, none)
      | some v =>
        match scanIntText v with
        | .ok n => ({ s with count := s.count + 1, ints := s.ints ++ [n] }, none)
        | .error c => (s, some c)
  | .str =>
    if s.count = e.maxcount then (s, some .maxcount)
    else
      match argval with
      | none => ({ s with count := s.count + 1 }, none)
      | some v => ({ s with count := s.count + 1, strs := s.strs ++ [v] }, none)

/-- argtable3.c:3238, 3374, 4574: the check functions. -/
def check (e : ArgEntry) (s : Slot) : Option ErrCode := if s.count < e.mincount then some .mincount else none

/-- One row of the `arg_end` arrays: `error`, `parent` (`none` is the end entry itself), `argval`. -/
structure ErrRec where
  code : ErrCode
  parent : Option Nat
  argval : Option CStr
deriving Repr, DecidableEq

/-- argtable3.c:4990-5002 `arg_register_error` with `max` rows. -/
def registerError (max : Nat) (errs : List ErrRec) (r : ErrRec) : List ErrRec :=
  if errs.length < max then errs ++ [r]
  else errs.set (max - 1) { code := .elimit, parent := none, argval := none }

/-! ## Option strings for getopt -/

/-- argtable3.c:5085-5093: the pieces of a comma-separated list; `acc` is the current piece, reversed. -/
def commaPieces : CStr → CStr → List CStr
  | acc, [] => [acc.reverse]
  | acc, c :: r =>
    if c = ',' then acc.reverse :: (if r = [] then [] else commaPieces [] r) else commaPieces (c :: acc) r

/-- argtable3.c:5085-5093: the names in `longopts`. -/
def longNames : Option CStr → List CStr
  | none => []
  | some [] => []
  | some s => commaPieces [] s

/-- argtable3.c:5099-5104: `has_arg`. -/
def Kind.hasArg : Kind → Nat
  | .lit => 0
  | .int => 1
  | .str => 1

/-- argtable3.c:5042-5117 `alloc_longoptions`: the option array, `i` being the index of the first entry. -/
def longOptions : List ArgEntry → Nat → List LongOpt
  | [], _ => []
  | e :: es, i => (longNames e.longopts).map (fun n => { name := n, hasArg := e.kind.hasArg, val := i }) ++ longOptions es (i + 1)

/-- argtable3.c:5119-5155 `alloc_shortoptions`. -/
def shortOptions (table : List ArgEntry) : CStr :=
  ':' :: table.flatMap fun e => (e.shortopts.getD []).flatMap fun c => if e.kind.hasArg = 1 then [c, ':'] else [c]

/-- argtable3.c:5008-5015 `find_shortoption`. -/
def findShort (table : List ArgEntry) (c : Char) : Option Nat :=
  table.findIdx? fun e => (strchr (e.shortopts.getD []) c).isSome

/-! ## Parsing -/

/-- The state of `arg_parse`: getopt's variables, the entries' values, the error rows. -/
structure PState where
  g : GState
  slots : Nat → Slot
  errs : List ErrRec

/-- Set the value of one entry. -/
def setSlot (slots : Nat → Slot) (i : Nat) (s : Slot) : Nat → Slot := fun j => if j = i then s else slots j

/-- argtable3.c:5205-5209, 5247-5252: scan a value for entry `i` and register its error. -/
def scanInto (max : Nat) (table : List ArgEntry) (i : Nat) (p : PState) : PState :=
  match table[i]? with
  | none => p
  | some e =>
    let (s, err) := scan e (p.slots i) p.g.optarg
    let p := { p with slots := setSlot p.slots i s }
    match err with
    | none => p
    | some c => { p with errs := registerError max p.errs { code := c, parent := some i, argval := p.g.optarg } }

/-- `argv[optind - 1]`. -/
def lastWord (g : GState) : Option CStr := g.argv[g.optind - 1]?

/-- argtable3.c:5195-5256, the body of the loop of `arg_parse_tagged` for what getopt returned; `none` ends the loop. -/
def handle (max : Nat) (table : List ArgEntry) (r : GRet) (p : PState) : Option PState :=
  match r with
  | .done => none
  | .long =>                                                                              -- 5196-5210
    let i := p.g.getoptval
    let p :=
      if p.g.optarg = some [] ∧ (table[i]?.map (·.kind.hasArg)) = some 1 then
        { p with errs := registerError max p.errs { code := .emissarg, parent := none, argval := lastWord p.g } }
      else p
    some (scanInto max table i p)
  | .badch =>                                                                             -- 5212-5228
    match p.g.optopt with
    | none => some { p with errs := registerError max p.errs { code := .elongopt, parent := none, argval := lastWord p.g } }
    | some c => some { p with errs := registerError max p.errs { code := .badShort c, parent := none, argval := none } }
  | .badarg =>                                                                            -- 5230-5236
    some { p with errs := registerError max p.errs { code := .emissarg, parent := none, argval := lastWord p.g } }
  | .short c =>                                                                           -- 5238-5255
    match findShort table c with
    | none => some { p with errs := registerError max p.errs { code := .badShort c, parent := none, argval := none } }
    | some i => some (scanInto max table i p)

/-- One iteration of the loop argtable3.c:5187-5257 of `arg_parse_tagged`: `.inr` when getopt returned -1. -/
def taggedStep (posix : Bool) (max : Nat) (table : List ArgEntry) (argc : Nat) (p : PState) : PState ⊕ PState :=
  let (r, g) := getoptLong posix argc (shortOptions table) (longOptions table 0) p.g
  match handle max table r { p with g := g } with
  | some p' => .inl p'
  | none => .inr { p with g := g }

/-- argtable3.c:5165-5261 `arg_parse_tagged`, at most `fuel` calls of getopt; `none` when it has not finished by then. -/
def tagged (posix : Bool) (max : Nat) (table : List ArgEntry) (argc : Nat) : Nat → PState → Option PState
  | 0, _ => none
  | fuel + 1, p =>
    match taggedStep posix max table argc p with
    | .inl p' => tagged posix max table argc fuel p'
    | .inr p' => some p'

/-- The entries `arg_parse_untagged` does not skip (argtable3.c:5280-5292; all entries have a scan function). -/
def untaggedEntries (table : List ArgEntry) : List Nat :=
  (List.range table.length).filter fun i =>
    match table[i]? with
    | some e => e.longopts.isNone && e.shortopts.isNone
    | none => false

/-- argtable3.c:5326-5329: an error for each unused word. -/
def rejectRest (max : Nat) (argv : List CStr) (errs : List ErrRec) : List ErrRec :=
  argv.foldl (fun es w => registerError max es { code := .enomatch, parent := none, argval := some w }) errs

/-- argtable3.c:5263-5332 `arg_parse_untagged` for a table without untagged entries (as main.c's is, `mainTable_tagged`): the
loop 5270-5316 skips every entry, and every word left is an error. -/
def untagged (max : Nat) (argc : Nat) (p : PState) : PState :=
  if argc ≤ p.g.optind then p
  else { p with errs := rejectRest max (p.g.argv.drop p.g.optind) p.errs, g := { p.g with optind := argc } }

/-- argtable3.c:5334-5345 `arg_parse_check`. -/
def parseCheck (max : Nat) (slots : Nat → Slot) : List ArgEntry → Nat → List ErrRec → List ErrRec
  | [], _, errs => errs
  | e :: es, i, errs =>
    parseCheck max slots es (i + 1) <|
      match check e (slots i) with
      | some c => registerError max errs { code := c, parent := some i, argval := none }
      | none => errs

/-- The state in which `arg_parse_tagged` starts getopt (argtable3.c:5180-5181; 1369-1405 for the initial values of the statics;
`argvcopy`, 5384-5394). -/
def startState (argv : List CStr) : PState where
  g :=
    { argv := argv, optind := 0, optreset := false, place := [], nonoptStart := none, nonoptEnd := none
      optopt := some '?', optarg := none, getoptval := 0, fault := false }
  slots := fun _ => {}
  errs := []

/-- argtable3.c:5357-5410 `arg_parse`: the entries' values and the error rows; `none` if parsing needs more than `fuel`
calls of getopt. -/
def argParse (posix : Bool) (max : Nat) (table : List ArgEntry) (argv : List CStr) (fuel : Nat) :
    Option ((Nat → Slot) × List ErrRec) :=
  if argv = [] then some ((startState argv).slots, parseCheck max (startState argv).slots table 0 [])   -- 5376-5382
  else
    match tagged posix max table argv.length fuel (startState argv) with
    | none => none
    | some p =>
      let p := untagged max argv.length p
      some (p.slots, if p.errs = [] then parseCheck max p.slots table 0 p.errs else p.errs)             -- 5403-5409

end Judger
