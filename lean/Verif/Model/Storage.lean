import Verif.Model.Main
import Verif.Spec.Heap

/-!
# argtable3 and main.c: the memory of the option table

What the constructors, `arg_reset`, `arg_parse` and its helpers, `main` and `arg_freetable` do with allocated memory, in order, alongside `Model/ArgTable` and
`Model/Main`.  Sizes and offsets are those of x86-64 Linux.  A structure `arg_hdr` is written by its constructor field by field and modelled as one cell.
Block `i` is entry `i` of the table; 100 is `arg_end`, 101 `argvcopy`, 102 the long options, 103 the short options.  What getopt does to the words of
`argvcopy` is the subject of `Model/Permute`.  When `malloc` fails, `xmalloc` ends the process (argtable3.c:356-362), so the trace just stops.
-/

set_option autoImplicit false

namespace Judger

open Spec

/-- `arg_end`, `argvcopy`, `longoptions`, `shortoptions`. -/
def endBlock : Nat := 100
@[inherit_doc endBlock] def argvBlock : Nat := 101
@[inherit_doc endBlock] def longBlock : Nat := 102
@[inherit_doc endBlock] def shortBlock : Nat := 103

/-- argtable3.h:95-109 `struct arg_hdr`: a `char`, 4 pointers, 2 `int`s, 6 pointers. -/
def hdrSize : Nat := 96
/-- argtable3.h:115-118 `struct arg_lit`; 120-124 `struct arg_int`, 132-136 `struct arg_str`; 160-166 `struct arg_end`. -/
def litSize : Nat := 104
@[inherit_doc litSize] def valSize : Nat := 112
@[inherit_doc litSize] def endSize : Nat := 128

/-- argtable3.c:3290, 3413, 4619: "ensuring maxcount is not less than mincount". -/
def roomFor (e : ArgEntry) : Nat := if e.maxcount < e.mincount then e.mincount else e.maxcount

/-- argtable3.c:3409-3437 `arg_litn`, 3285-3317 `arg_intn`, 4611-4650 `arg_strn`. -/
def construct (i : Nat) (e : ArgEntry) : List MemEv :=
  match e.kind with
  | .lit => [.alloc i litSize, .write i 0 hdrSize, .write i 96 4]
  | .int => [.alloc i (valSize + roomFor e * 4), .write i 0 hdrSize, .write i 104 8, .write i 96 4]
  | .str => [.alloc i (valSize + roomFor e * 8), .write i 0 hdrSize, .write i 104 8, .write i 96 4] ++
      (List.range (roomFor e)).map fun k => .write i (valSize + 8 * k) 8                               -- 4645-4646

/-- argtable3.c:2768-2804 `arg_end`; `count` is left as it is. -/
def constructEnd (max : Nat) : List MemEv :=
  [.alloc endBlock (endSize + max * 4 + max * 8 + max * 8), .write endBlock 0 hdrSize, .write endBlock 104 8, .write endBlock 112 8,
    .write endBlock 120 8]

/-- main.c:14-40: the whole table, starting with entry `i`. -/
def constructAll (max : Nat) : Nat → List ArgEntry → List MemEv
  | _, [] => constructEnd max
  | i, e :: es => construct i e ++ constructAll max (i + 1) es

/-- argtable3.c:3358-3361 `arg_lit_resetfn`, 3071-3074 `arg_int_resetfn`, 4545-4553 `arg_str_resetfn`. -/
def resetEntry (i : Nat) (e : ArgEntry) (s : Slot) : List MemEv :=
  [.read i 0 hdrSize] ++
  match e.kind with
  | .str => .read i 96 4 :: ((List.range s.count).flatMap fun k => [.read i 104 8, .write i (valSize + 8 * k) 8]) ++ [.write i 96 4]
  | _ => [.write i 96 4]

/-- argtable3.c:5347-5355 `arg_reset`, 2731-2734 `arg_end_resetfn`. -/
def resetAll (slots : Nat → Slot) : Nat → List ArgEntry → List MemEv
  | _, [] => [.read endBlock 0 hdrSize, .write endBlock 96 4]
  | i, e :: es => resetEntry i e (slots i) ++ resetAll slots (i + 1) es

/-- argtable3.c:4990-5002 `arg_register_error` when `n` rows are in use. -/
def registerEv (max n : Nat) : List MemEv :=
  let k := if n < max then n else max - 1
  [.read endBlock 96 4, .read endBlock 0 hdrSize,
    .read endBlock 104 8, .write endBlock (endSize + 4 * k) 4,
    .read endBlock 112 8, .write endBlock (endSize + 4 * max + 8 * k) 8,
    .read endBlock 120 8, .write endBlock (endSize + 4 * max + 8 * max + 8 * k) 8] ++
  if n < max then [.write endBlock 96 4] else []

/-- The scan functions (argtable3.c:3363-3372, 3167-3236, 4555-4572): `parent->ival[parent->count++] = ...`. -/
def scanEv (i : Nat) (e : ArgEntry) (s : Slot) (argval : Option CStr) : List MemEv :=
  [.read i 0 hdrSize, .read i 96 4] ++
  match e.kind with
  | .lit => if s.count < e.maxcount then [.write i 96 4] else []
  | .int =>
    if s.count = e.maxcount then []
    else
      match argval with
      | none => [.write i 96 4]
      | some v =>
        match scanIntText v with
        | .ok _ => [.read i 104 8, .write i (valSize + 4 * s.count) 4, .write i 96 4]
        | .error _ => []
  | .str =>
    if s.count = e.maxcount then []
    else
      match argval with
      | none => [.write i 96 4]
      | some _ => [.read i 104 8, .write i (valSize + 8 * s.count) 8, .write i 96 4]

/-- argtable3.c:5205-5209, 5247-5252. -/
def scanIntoEv (max : Nat) (table : List ArgEntry) (i : Nat) (p : PState) : List MemEv :=
  match table[i]? with
  | none => []
  | some e =>
    scanEv i e (p.slots i) p.g.optarg ++
    match (scan e (p.slots i) p.g.optarg).2 with
    | none => []
    | some _ => registerEv max p.errs.length

/-- argtable3.c:5195-5256: see `handle`. -/
def handleEv (max : Nat) (table : List ArgEntry) (r : GRet) (p : PState) : List MemEv :=
  match r with
  | .done => []
  | .long =>
    let i := p.g.getoptval
    let empty := p.g.optarg = some [] ∧ (table[i]?.map (·.kind.hasArg)) = some 1
    let p' :=
      if empty then
        { p with errs := registerError max p.errs { code := .emissarg, parent := none, argval := lastWord p.g } }
      else p
    [.read longBlock 0 4] ++ (if empty then registerEv max p.errs.length else []) ++ scanIntoEv max table i p'
  | .badch => registerEv max p.errs.length
  | .badarg => registerEv max p.errs.length
  | .short c =>
    match findShort table c with
    | none => registerEv max p.errs.length
    | some i => scanIntoEv max table i p

/-- argtable3.c:5058-5069, the loop that counts: how many options a list of names is counted as. -/
def countNames : Option CStr → Nat
  | none => 0
  | some s => 1 + (s.drop 1).count ','

/-- argtable3.c:5045-5069: `noptions` (the end entry has no names). -/
def nOptions (table : List ArgEntry) : Nat := 1 + (table.map fun e => countNames e.longopts).sum

/-- argtable3.c:5062: `longoptlen`; 1 for the end entry. -/
def longOptLen (table : List ArgEntry) : Nat := (table.map fun e => (e.longopts.getD []).length + 1).sum + 1

/-- `sizeof(struct longoptions)` (argtable3.c:5017-5021) and `sizeof(struct option)`. -/
def longHead : Nat := 16
@[inherit_doc longHead] def optionSize : Nat := 32

/-- argtable3.c:5083-5108: the names copied to `store`, each with its terminator, and the fields of each option: `k` the index of the first, `pos` the
offset of `store`. -/
def fillOptions : Nat → Nat → List LongOpt → List MemEv
  | _, _, [] => []
  | k, pos, o :: os =>
    ((List.range (o.name.length + 1)).map fun j => .write longBlock (pos + j) 1) ++
    [.write longBlock (longHead + optionSize * k) 8, .write longBlock (longHead + optionSize * k + 16) 8,
      .write longBlock (longHead + optionSize * k + 24) 4, .write longBlock (longHead + optionSize * k + 8) 4] ++
    fillOptions (k + 1) (pos + o.name.length + 1) os

/-- argtable3.c:5042-5117 `alloc_longoptions`. -/
def allocLong (table : List ArgEntry) : List MemEv :=
  let os := longOptions table 0
  [.alloc longBlock (longHead + optionSize * nOptions table + longOptLen table), .write longBlock 0 4, .write longBlock 4 4, .write longBlock 8 8] ++
  fillOptions 0 (longHead + optionSize * nOptions table) os ++
  [.write longBlock (longHead + optionSize * os.length) 8, .write longBlock (longHead + optionSize * os.length + 8) 4,
    .write longBlock (longHead + optionSize * os.length + 16) 8, .write longBlock (longHead + optionSize * os.length + 24) 4]

/-- argtable3.c:5119-5155 `alloc_shortoptions`; the string written is `shortOptions`. -/
def allocShort (table : List ArgEntry) : List MemEv :=
  .alloc shortBlock (2 + (table.map fun e => 3 * (e.shortopts.getD []).length).sum) ::
    (List.range ((shortOptions table).length + 1)).map fun j => .write shortBlock j 1

/-- What one call of getopt_long may read of the two option arrays: the short options to their end, the long options up to the one without a name with
their names, fields and flag (argtable3.c:1489-1586, 1664-1892); a long option found stores its number (1575). -/
def getoptEv (table : List ArgEntry) : List MemEv :=
  let os := longOptions table 0
  let names := (os.map fun o => o.name.length + 1).sum
  ((List.range ((shortOptions table).length + 1)).map fun j => .read shortBlock j 1) ++
  ((List.range (os.length + 1)).flatMap fun k => [.read longBlock (longHead + optionSize * k) 8]) ++
  ((List.range os.length).flatMap fun k => [.read longBlock (longHead + optionSize * k + 8) 4, .read longBlock (longHead + optionSize * k + 16) 8,
    .read longBlock (longHead + optionSize * k + 24) 4]) ++
  ((List.range names).map fun j => .read longBlock (longHead + optionSize * nOptions table + j) 1) ++
  [.write longBlock 0 4]

/-- One iteration of argtable3.c:5187-5257. -/
def taggedStepEv (posix : Bool) (max : Nat) (table : List ArgEntry) (argc : Nat) (p : PState) : List MemEv :=
  let (r, g) := getoptLong posix argc (shortOptions table) (longOptions table 0) p.g
  getoptEv table ++ handleEv max table r { p with g := g }

/-- argtable3.c:5187-5257, at most `fuel` iterations. -/
def taggedEv (posix : Bool) (max : Nat) (table : List ArgEntry) (argc : Nat) : Nat → PState → List MemEv
  | 0, _ => []
  | fuel + 1, p =>
    taggedStepEv posix max table argc p ++
    match taggedStep posix max table argc p with
    | .inl p' => taggedEv posix max table argc fuel p'
    | .inr _ => []

/-- argtable3.c:5326-5329: see `rejectRest`. -/
def rejectEv (max : Nat) : List CStr → List ErrRec → List MemEv
  | [], _ => []
  | w :: ws, errs => registerEv max errs.length ++ rejectEv max ws (registerError max errs { code := .enomatch, parent := none, argval := some w })

/-- argtable3.c:5334-5345 `arg_parse_check`: see `parseCheck`. -/
def checkEv (max : Nat) (slots : Nat → Slot) : List ArgEntry → Nat → List ErrRec → List MemEv
  | [], _, _ => [.read endBlock 0 hdrSize]
  | e :: es, i, errs =>
    [.read i 0 hdrSize, .read i 96 4] ++
    match check e (slots i) with
    | some c => registerEv max errs.length ++ checkEv max slots es (i + 1) (registerError max errs { code := c, parent := some i, argval := none })
    | none => checkEv max slots es (i + 1) errs

/-- argtable3.c:5384-5394: `argvcopy`. -/
def copyArgv (argc : Nat) : List MemEv :=
  .alloc argvBlock (8 * (argc + 1)) :: (List.range (argc + 1)).map fun k => .write argvBlock (8 * k) 8

/-- argtable3.c:5357-5410 `arg_parse` after `arg_reset`. -/
def parseEv (posix : Bool) (max : Nat) (table : List ArgEntry) (argv : List CStr) (fuel : Nat) : List MemEv :=
  if argv = [] then checkEv max (startState argv).slots table 0 [] ++ [.read endBlock 96 4]
  else
    copyArgv argv.length ++ allocLong table ++ allocShort table ++                                    -- 5384-5394, 5171-5173
    taggedEv posix max table argv.length fuel (startState argv) ++
    match tagged posix max table argv.length fuel (startState argv) with
    | none => []
    | some p =>
      [.free shortBlock, .free longBlock] ++                                                          -- 5259-5260
      (if argv.length ≤ p.g.optind then [] else rejectEv max (p.g.argv.drop p.g.optind) p.errs) ++
      [.read endBlock 96 4] ++                                                                        -- 5403
      (let p := untagged max argv.length p
       if p.errs = [] then checkEv max p.slots table 0 p.errs else []) ++
      [.free argvBlock, .read endBlock 96 4]                                                          -- 5408-5409

/-- main.c:69-168: what `main` reads of the values of an entry: its count, and the values counted; an `int` entry and an entry for one string is
read only if it occurred, `exe_path` (entry 9) always. -/
def readEntry (i : Nat) (e : ArgEntry) (s : Slot) : List MemEv :=
  match e.kind with
  | .lit => [.read i 96 4]
  | .int => .read i 96 4 :: if s.count > 0 then [.read i 104 8, .read i valSize 4] else []
  | .str =>
    if i = 9 then [.read i 104 8, .read i valSize 8]                                                   -- 111
    else .read i 96 4 :: (List.range s.count).flatMap fun k => [.read i 104 8, .read i (valSize + 8 * k) 8]

/-- main.c:69-168: all entries from `i` on. -/
def readAll (slots : Nat → Slot) : Nat → List ArgEntry → List MemEv
  | _, [] => []
  | i, e :: es => readEntry i e (slots i) ++ readAll slots (i + 1) es

/-- argtable3.c:2805-2813 `arg_print_errors_ds`, from row `k` on; the error function is taken from the header of the entry `parent` points to. -/
def readRows (max : Nat) : Nat → List ErrRec → List MemEv
  | _, [] => []
  | k, r :: rs =>
    [.read endBlock 112 8, .read endBlock (endSize + 4 * max + 8 * k) 8, .read (r.parent.getD endBlock) 0 hdrSize,
      .read endBlock 104 8, .read endBlock (endSize + 4 * k) 4, .read endBlock 120 8, .read endBlock (endSize + 4 * max + 8 * max + 8 * k) 8] ++
    readRows max (k + 1) rs

/-- argtable3.c:2805-2813 `arg_print_errors_ds`: the rows in use. -/
def readErrors (max : Nat) (errs : List ErrRec) : List MemEv := .read endBlock 96 4 :: readRows max 0 errs

/-- argtable3.c:6001-6013 `arg_freetable`: the entries from `i` on, then `arg_end`. -/
def freeAll : Nat → List ArgEntry → List MemEv
  | _, [] => [.free endBlock]
  | i, _ :: es => .free i :: freeAll (i + 1) es

/-- main.c:13-191: everything that is done with the memory of the table.  (Help and version read the headers only.) -/
def mainEv (posix : Bool) (argv : List CStr) (fuel : Nat) : List MemEv :=
  constructAll maxErrors 0 mainTable ++ resetAll (fun _ => {}) 0 mainTable ++ parseEv posix maxErrors mainTable argv fuel ++
  match argParse posix maxErrors mainTable argv fuel with
  | none => []
  | some (v, errs) =>
    (if (v 0).count > 0 ∨ (v 1).count > 0 then [.read 0 96 4, .read 1 96 4] ++ (List.range mainTable.length).map fun i => .read i 0 hdrSize
     else if errs ≠ [] then readErrors maxErrors errs
     else readAll v 0 mainTable) ++
    freeAll 0 mainTable

end Judger
