import Verif.Model.Main

/-!
# The texts printed by `main` for `--help`, `--version` and a wrong command line

argtable3's dynamic strings, the 200-byte buffers in which option names are put together, and the functions that print with them.
Memory is a list of characters of fixed length, NUL is `'\x00'`; `none` stands for undefined behaviour: an access outside the
buffer, a string without NUL, or a signed overflow.  Allocation succeeds (`xmalloc` ends the process otherwise, argtable3.c:328-362).
-/

set_option autoImplicit false

namespace Judger.Report

/-! ## Memory -/

/-- NUL. -/
def nul : Char := '\x00'

/-- A block of memory. -/
abbrev Block := List Char

/-- Write one character. -/
def poke (b : Block) (i : Nat) (c : Char) : Option Block := if i < b.length then some (b.set i c) else none

/-- Write consecutive characters, first character first. -/
def pokes (b : Block) (i : Nat) : CStr → Option Block
  | [] => some b
  | c :: s => do pokes (← poke b i c) (i + 1) s

/-- `strlen(p)` with `p` at the start of these characters. -/
def strlen : Block → Option Nat
  | [] => none
  | c :: b => if c = nul then some 0 else (strlen b).map (· + 1)

/-- The string at the start of a block. -/
def stringAt (b : Block) : Option CStr := (strlen b).map (b.take ·)

/-! ## Dynamic strings -/

/-- argtable3.c:971-978 `_internal_arg_dstr_t`.  `append` is `append_data` with its size (`none`: NULL, 0).  `data` is `append_data`, or
`sbuf` before the first append; nothing is ever stored in `sbuf` by the functions used here, so it is all zero, and `free_proc` is
always NULL (`ARG_DSTR_STATIC`, argtable3.h:215). -/
structure DStr where
  append : Option Block
  used : Nat
deriving Repr, DecidableEq

/-- argtable3.c:982-989 `arg_dstr_create`. -/
def dstrCreate : DStr := ⟨none, 0⟩

/-- `ds->data`; argtable3.h:44: `sbuf` has 201 bytes. -/
def DStr.data (d : DStr) : Block := d.append.getD (List.replicate 201 nul)

/-- `ds->append_data_size`. -/
def DStr.size (d : DStr) : Nat := (d.append.getD []).length

/-- argtable3.c:1143-1162: `append_used` brought up to date. -/
def refreshUsed (d : DStr) : Option Nat :=
  match d.append with
  | none => strlen d.data                                                               -- 1154; 1149: the size is 0
  | some b =>
    match b[d.used]? with                                                               -- 1155
    | none => none
    | some c => if c ≠ nul then strlen b else some d.used                                -- 1161

/-- argtable3.c:1135-1187 `setup_append_buf`. -/
def setupAppendBuf (d : DStr) (newSpace : Nat) : Option DStr := do
  let used ← refreshUsed d
  let total := newSpace + used                                                          -- 1164
  if total ≥ d.size then
    let total := if total < 100 then 200 else total * 2                                  -- 1168-1172
    if INT_MAX < total then none
    else
      let text ← stringAt d.data
      let b ← pokes (List.replicate total nul) 0 (text ++ [nul])                          -- 1173-1175
      return ⟨some b, used⟩                                                             -- 1179-1186
  else
    match d.append with
    | some b => return ⟨some b, used⟩
    | none => none                                                                      -- 1182; not reached, the size is 0

/-- argtable3.c:1050-1053 `arg_dstr_cat`.  The terminating NUL is not copied. -/
def dstrCat (s : CStr) (d : DStr) : Option DStr := do
  let d ← setupAppendBuf d (s.length + 1)
  match d.append with
  | none => none
  | some b =>
    let n ← strlen b
    return { d with append := some (← pokes b n s) }

/-- argtable3.c:1112-1129: the loop of `arg_dstr_catf` for a format that gives `text`; `n` is the current limit.  What is in `buff` at the
end.  `vsnprintf(buff, n + 1, ...)` stores the first `n` characters and a NUL, and returns the length of `text`.  (`n` is at least 16, 1106.) -/
def catfLoop (text : CStr) (n : Nat) : CStr :=
  if n = 0 ∨ (text.take n).length < n then text.take n                                   -- 1117-1119
  else catfLoop text (if text.length > n then text.length else n + n)                     -- 1121-1128
termination_by text.length + 1 - n
decreasing_by
  rename_i h
  have : n ≤ (text.take n).length := by omega
  have : n ≤ text.length := by rw [List.length_take] at this; omega
  split <;> omega

/-- argtable3.c:1093-1133 `arg_dstr_catf` for a format of `fmtLen` characters that gives `text`. -/
def dstrCatf (fmtLen : Nat) (text : CStr) (d : DStr) : Option DStr :=
  dstrCat (catfLoop text (if 2 * fmtLen < 16 then 16 else 2 * fmtLen)) d                 -- 1106-1107, 923

/-! ## Names of options -/

/-- A string being put together by `arg_cat`: the array, the pointer `dest` as an index, and `ndest`. -/
structure Cursor where
  block : Block
  dest : Nat
  ndest : Nat
deriving Repr, DecidableEq

/-- argtable3.c:5437-5438: advance to the NUL, at most `k` characters. -/
def skipText (b : Block) : Nat → Nat → Option Nat
  | i, 0 => some i
  | i, k + 1 =>
    match b[i]? with
    | none => none
    | some c => if c ≠ nul then skipText b (i + 1) k else some i

/-- argtable3.c:5441-5442: copy, at most `k` characters; the array and the position after the last one. -/
def copyText (b : Block) (i : Nat) : Nat → CStr → Option (Block × Nat)
  | 0, _ => some (b, i)
  | _, [] => some (b, i)
  | k + 1, c :: s => do copyText (← poke b i c) (i + 1) k s

/-- argtable3.c:5432-5450 `arg_cat`. -/
def argCat (s : CStr) (u : Cursor) : Option Cursor := do
  let stop := u.dest + u.ndest                                                          -- 5434
  let i ← skipText u.block u.dest (stop - 1 - u.dest)
  let (b, i) ← copyText u.block i (stop - 1 - i) s
  return ⟨← poke b i nul, i, stop - i⟩                                                  -- 5445-5449

/-- `strncat(dest, s, k)`. -/
def strncat (s : CStr) (k : Nat) (u : Cursor) : Option Cursor := do
  let n ← strlen (u.block.drop u.dest)
  return { u with block := ← pokes u.block (u.dest + n) (s.take k ++ [nul]) }

/-- `strcspn(s, ",")`. -/
def toComma (s : CStr) : Nat := (s.takeWhile (· ≠ ',')).length

/-- argtable3.c:5531-5550, the loop of `arg_cat_optionv` over the names in `longopts`; `fuel` bounds the number of names. -/
def catLongNames (sep : CStr) : Nat → CStr → Cursor → Option Cursor
  | 0, _, _ => none
  | _, [], u => some u
  | fuel + 1, names, u => do
    let u ← argCat c!"--" u                                                              -- 5535
    let n := toComma names
    let u ← strncat names (if n < u.ndest then n else u.ndest) u                           -- 5542
    match names.drop n with
    | [] => return u
    | _ :: rest => catLongNames sep fuel rest (← argCat sep u)                            -- 5547-5550

/-- argtable3.c:5505-5568 `arg_cat_optionv` for an option without short names and with `optvalue` 0 (all of main.c's). -/
def catOptionv (longopts : Option CStr) (datatype : Option CStr) (sep : CStr) (u : Cursor) : Option Cursor := do
  let u ← match longopts with
    | none => some u
    | some names => catLongNames sep (names.length + 1) names u
  match datatype with                                                                    -- 5555-5567
  | none => return u
  | some t =>
    let u ← if longopts.isSome then argCat ['='] u else some u
    argCat t u

/-- argtable3.c:5452-5503 `arg_cat_option` for an option without short names and with `optvalue` 0: only the first long name. -/
def catOption (longopts : Option CStr) (datatype : Option CStr) (u : Cursor) : Option Cursor := do
  match longopts, datatype with
  | some names, t =>
    let u ← argCat c!"--" u                                                              -- 5476
    let n := toComma names
    let u ← strncat names (if n < u.ndest then n else u.ndest) u                           -- 5483
    match t with
    | none => return u
    | some t => argCat t (← argCat ['='] u)                                               -- 5487-5494
  | none, some t => argCat t u                                                           -- 5495-5501
  | none, none => return u

/-- `char syntax[200] = ""`, with `ndest` as passed, `sizeof(syntax) - 1`. -/
def syntaxBuffer : Cursor := ⟨List.replicate 200 nul, 0, 199⟩

/-- argtable3.c:5570-5579 `arg_print_option_ds`. -/
def printOption (longopts datatype : Option CStr) (suffix : CStr) (d : DStr) : Option DStr := do
  let u ← catOptionv longopts datatype ['|'] syntaxBuffer                                 -- 5575
  let d ← dstrCat (← stringAt u.block) d
  dstrCat suffix d

/-! ## Wrong command lines -/

/-- main.c:4-5, 14-38: the datatype (argtable3.c:3301, 3421, 4630) and the glossary text of each entry of `mainTable`. -/
def mainTexts : List (Option CStr × CStr) :=
  [ (none, c!"Display This Help And Exit")
  , (none, c!"Display Version Info And Exit")
  , (some c!"<n>", c!"Max CPU Time (ms)")
  , (some c!"<n>", c!"Max Real Time (ms)")
  , (some c!"<n>", c!"Max Memory (byte)")
  , (some c!"<n>", c!"only check memory usage, do not setrlimit (default False)")
  , (some c!"<n>", c!"Max Stack (byte, default 16M)")
  , (some c!"<n>", c!"Max Process Number")
  , (some c!"<n>", c!"Max Output Size (byte)")
  , (some c!"<str>", c!"Exe Path")
  , (some c!"<str>", c!"Input Path")
  , (some c!"<str>", c!"Output Path")
  , (some c!"<str>", c!"Error Path")
  , (some c!"<str>", c!"Arg")
  , (some c!"<str>", c!"Env")
  , (some c!"<str>", c!"Log Path")
  , (some c!"<str>", c!"Seccomp Rule Name")
  , (some c!"<n>", c!"UID (default 65534)")
  , (some c!"<n>", c!"GID (default 65534)") ]

/-- main.c:43. -/
def progname : CStr := c!"libjudger.so"

/-- argtable3.h:159 and argtable3.c:5225: the number kept for an error of the end entry. -/
def endNumber : ErrCode → Nat
  | .elimit => 1
  | .enomatch => 3
  | .elongopt => 4
  | .emissarg => 5
  | .badShort c => c.toNat
  | _ => 0                                                                              -- not registered for the end entry

/-- argtable3.c:2736-2767 `arg_end_errorfn`. -/
def endError (error : Nat) (argval : CStr) (d : DStr) : Option DStr := do
  let d ← dstrCatf 4 (progname ++ c!": ") d                                              -- 2743
  let d ← match error with
    | 1 => dstrCat c!"too many errors to display" d
    | 2 => dstrCat c!"insufficient memory" d
    | 3 => dstrCatf 24 (c!"unexpected argument \"" ++ argval ++ c!"\"") d
    | 4 => dstrCatf 19 (c!"invalid option \"" ++ argval ++ c!"\"") d
    | 5 => dstrCatf 32 (c!"option \"" ++ argval ++ c!"\" requires an argument") d
    | n => dstrCatf 20 (c!"invalid option \"-" ++ [Char.ofNat n] ++ c!"\"") d
  dstrCat c!"\n" d                                                                       -- 2766

/-- argtable3.c:3244-3274 `arg_int_errorfn`. -/
def intError (longopts datatype : Option CStr) (code : ErrCode) (argval : CStr) (d : DStr) : Option DStr := do
  let d ← dstrCatf 4 (progname ++ c!": ") d
  match code with
  | .mincount => printOption longopts datatype c!"\n" (← dstrCat c!"missing option " d)
  | .maxcount => printOption longopts (some argval) c!"\n" (← dstrCat c!"excess option " d)
  | .badint => printOption longopts datatype c!"\n" (← dstrCatf 32 (c!"invalid argument \"" ++ argval ++ c!"\" to option ") d)
  | .overflow =>
    let d ← printOption longopts datatype c!" " (← dstrCat c!"integer overflow at option " d)
    dstrCatf 18 (c!"(" ++ argval ++ c!" is too large)\n") d
  | _ => return d

/-- argtable3.c:3380-3400 `arg_lit_errorfn`. -/
def litError (longopts datatype : Option CStr) (code : ErrCode) (d : DStr) : Option DStr := do
  match code with
  | .mincount =>
    let d ← printOption longopts datatype c!"\n" (← dstrCatf 19 (progname ++ c!": missing option ") d)
    dstrCat c!"\n" d
  | .maxcount => printOption longopts datatype c!"\n" (← dstrCatf 22 (progname ++ c!": extraneous option ") d)
  | _ => return d

/-- argtable3.c:4581-4601 `arg_str_errorfn`. -/
def strError (longopts datatype : Option CStr) (code : ErrCode) (argval : CStr) (d : DStr) : Option DStr := do
  let d ← dstrCatf 4 (progname ++ c!": ") d
  match code with
  | .mincount => printOption longopts datatype c!"\n" (← dstrCat c!"missing option " d)
  | .maxcount => printOption longopts (some argval) c!"\n" (← dstrCat c!"excess option " d)
  | _ => return d

/-- argtable3.c:2809-2811: one row.  A NULL `argval` is printed as the empty text. -/
def printError (r : ErrRec) (d : DStr) : Option DStr :=
  let argval := r.argval.getD []
  match r.parent with
  | none => endError (endNumber r.code) argval d
  | some i =>
    match mainTable[i]?, mainTexts[i]? with
    | some e, some t =>
      match e.kind with
      | .lit => litError e.longopts t.1 r.code d
      | .int => intError e.longopts t.1 r.code argval d
      | .str => strError e.longopts t.1 r.code argval d
    | _, _ => none

/-- argtable3.c:2805-2813 `arg_print_errors_ds`. -/
def printErrors : List ErrRec → DStr → Option DStr
  | [], d => some d
  | r :: rs, d => do printErrors rs (← printError r d)

/-- main.c:59-61 with argtable3.c:2815-2820: what is printed for these rows. -/
def reportText (rs : List ErrRec) : Option CStr := do
  let d ← printErrors rs dstrCreate
  return (← stringAt d.data) ++ c!"Try '" ++ progname ++ c!" --help' for more information.\n"

/-! ## Help and version -/

/-- argtable3.c:5666-5669: the mandatory instances of an option. -/
def mandatory (s : CStr) : Nat → DStr → Option DStr
  | 0, d => some d
  | n + 1, d => do mandatory s n (← dstrCat s (← dstrCat [' '] d))

/-- argtable3.c:5676-5678: an optional instance. -/
def optional (s close : CStr) (d : DStr) : Option DStr := do
  dstrCat close (← dstrCat s (← dstrCat c!" [" d))

/-- argtable3.c:5671-5693: the optional instances, `n` of them. -/
def optionals (s : CStr) (n : Nat) (d : DStr) : Option DStr :=
  match n with
  | 0 => some d
  | 1 => optional s c!"]" d
  | 2 => do optional s c!"]" (← optional s c!"]" d)
  | _ => optional s c!"]..." d

/-- argtable3.c:5652-5695, the loop body of `arg_print_syntax_ds` for an entry without short names. -/
def syntaxEntry (e : ArgEntry) (datatype : Option CStr) (d : DStr) : Option DStr := do
  let u ← catOption e.longopts datatype syntaxBuffer                                      -- 5662
  let s ← stringAt u.block
  if s.length > 0 then                                                                   -- 5664
    optionals s (e.maxcount - e.mincount) (← mandatory s e.mincount d)
  else return d

/-- argtable3.c:5651-5695, the loop of `arg_print_syntax_ds`. -/
def printSyntax : List (ArgEntry × (Option CStr × CStr)) → DStr → Option DStr
  | [], d => some d
  | (e, t) :: es, d => do printSyntax es (← syntaxEntry e t.1 d)

/-- `%-25s` -/
def padRight (n : Nat) (s : CStr) : CStr := s ++ List.replicate (n - s.length) ' '

/-- argtable3.c:5772-5780, the loop body of `arg_print_glossary_ds` with the format of main.c:50; every entry has a glossary text. -/
def glossaryEntry (e : ArgEntry) (t : Option CStr × CStr) (d : DStr) : Option DStr := do
  let u ← catOptionv e.longopts t.1 c!", " syntaxBuffer                                   -- 5778
  let s ← stringAt u.block
  dstrCatf 11 (c!"  " ++ padRight 25 s ++ [' '] ++ t.2 ++ c!"\n") d

/-- argtable3.c:5771-5781, the loop of `arg_print_glossary_ds`. -/
def printGlossary : List (ArgEntry × (Option CStr × CStr)) → DStr → Option DStr
  | [], d => some d
  | (e, t) :: es, d => do printGlossary es (← glossaryEntry e t d)

/-- main.c:47-50 with argtable3.c:5702-5707, 5784-5789: what is printed for `--help`.  argtable3.c:5648, 5594-5641: no entry has short names,
so `arg_print_gnuswitch_ds` appends the empty text. -/
def helpText : Option CStr := do
  let d ← dstrCatf 2 [] dstrCreate                                                       -- 5640
  let d ← printSyntax (mainTable.zip mainTexts) d
  let d ← dstrCat c!"\n\n" d                                                             -- 5698
  let g ← printGlossary (mainTable.zip mainTexts) dstrCreate
  return c!"Usage: " ++ progname ++ (← stringAt d.data) ++ (← stringAt g.data)

/-- main.c:55: what is printed for `--version`. -/
def versionText : CStr :=
  c!"Version: " ++ showNat (VERSION / 65536 % 256) ++ ['.'] ++ showNat (VERSION / 256 % 256) ++ ['.'] ++ showNat (VERSION % 256) ++ c!"\n"

end Judger.Report
