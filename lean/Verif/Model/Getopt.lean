import Verif.Model.Permute

/-!
# The embedded `getopt_long` (argtable3.c:1249-1961)

argtable3.h:48-50 selects the embedded getopt, argtable3.c:1366 defines `GNU_COMPATIBLE`.

Not modelled: the warning texts (`PRINT_ERROR`, argtable3.c:1374: the option string starts with ':' and `opterr` is 0, so nothing
is printed), `FLAG_ALLARGS` and a leading '+' or '-' of the option string (argtable3.c:1727-1732: the string made by
`alloc_shortoptions` always starts with ':'), `getopt_long_only` (`ARG_LONG_ONLY` is not defined), and `idx` (always NULL).
Pointers into argument words are represented by the characters from the pointer to the end of the word.  The C test
`place != nargv[optind]` (argtable3.c:1823) compares a pointer strictly inside a word with the start of a word, so it is always true
and is left out.
-/

set_option autoImplicit false

namespace Judger

/-- argtable3.c:1262-1274 `struct option`.  `flag` is left out: `alloc_longoptions` gives every entry the same non-NULL
flag (argtable3.c:5097), so returning means storing `val` in `getoptval` and returning 0. -/
structure LongOpt where
  name : CStr
  hasArg : Nat
  val : Nat
deriving Repr, DecidableEq

/-- What one call of `getopt_long` returns. -/
inductive GRet where
  /-- `-1` -/
  | done
  /-- `0`: a long option; its table index is in `getoptval`. -/
  | long
  /-- `'?'` -/
  | badch
  /-- `':'` -/
  | badarg
  /-- A short option letter. -/
  | short (c : Char)
deriving Repr, DecidableEq

/-- The static and global variables of getopt (argtable3.c:1368-1372, 1401-1405), the permuted argument vector, and
`longoptions->getoptval`.  `fault` records that `permute_args` has divided by zero or left the vector.  `place = []` stands for a pointer to a NUL (in particular `EMSG`); `nonoptStart = none` for -1;
`optopt = none` for 0. -/
structure GState where
  argv : List CStr
  optind : Nat
  optreset : Bool
  place : CStr
  nonoptStart : Option Nat
  nonoptEnd : Option Nat
  optopt : Option Char
  optarg : Option CStr
  getoptval : Nat
  fault : Bool
deriving Repr, DecidableEq

/-- A call of `permute_args` (argtable3.c:1743, 1785, 1808) with the vector being parsed. -/
def permuted (s e o : Nat) (σ : GState) : GState :=
  match permuteArgs s e o σ.argv with
  | some argv => { σ with argv := argv }
  | none => { σ with fault := true }

/-- `strchr(s, c)` as the string from the first occurrence of `c` on (`c` not NUL). -/
def strchr (s : CStr) (c : Char) : Option CStr :=
  match s with
  | [] => none
  | x :: r => if x = c then some (x :: r) else strchr r c

/-- `strncmp(a, b, n) == 0` where `a` has at least `n` characters before its NUL: `b` starts with the first `n` characters
of `a`. -/
def strncmpEq (a b : CStr) (n : Nat) : Bool := (a.take n).isPrefixOf b

/-- The loop variables of argtable3.c:1571-1598. -/
structure Found where
  matched : Option LongOpt
  exact : Bool
  second : Bool
deriving Repr, DecidableEq

/-- argtable3.c:1571-1598, the search for the long option named by the first `len` characters of `cur`.  `flag` is the same for
all options; `short_too` and `FLAG_LONGONLY` are off (argtable3.c:1825: `short_too = 0` when the word starts with `--`,
and otherwise parse_long_options is not reached without `FLAG_LONGONLY`). -/
def findLong (cur : CStr) (len : Nat) : List LongOpt → Found → Found
  | [], f => f
  | o :: os, f =>
    if !strncmpEq cur o.name len then findLong cur len os f                          -- 1573-1575
    else if o.name.length = len then { f with matched := some o, exact := true }      -- 1577-1582
    else
      match f.matched with
      | none => findLong cur len os { f with matched := some o }                       -- 1590-1591
      | some m =>
        if o.hasArg ≠ m.hasArg ∨ o.val ≠ m.val then                                    -- 1592-1597
          findLong cur len os { f with second := true }
        else findLong cur len os f

/-- argtable3.c:1530-1689 `parse_long_options` (with `short_too = 0`). -/
def parseLongOptions (longOpts : List LongOpt) (σ : GState) : GRet × GState :=
  let cur := σ.place
  let σ := { σ with optind := σ.optind + 1 }                                            -- 1562
  let eq := strchr cur '='                                                               -- 1564-1569
  let len := match eq with
    | some r => cur.length - r.length
    | none => cur.length
  let f := findLong cur len longOpts { matched := none, exact := false, second := false }
  if !f.exact && f.second then
    (.badch, { σ with optopt := none })                                                 -- 1599-1610
  else
    match f.matched with
    | none => (.badch, { σ with optopt := none })                                       -- 1667-1680
    | some o =>
      if o.hasArg = 0 ∧ eq ≠ none then
        (.badch, { σ with optopt := none })                                             -- 1612-1633
      else
        let σ :=                                                                         -- 1634-1645
          if o.hasArg = 1 ∨ o.hasArg = 2 then
            match eq with
            | some r => { σ with optarg := some (r.drop 1) }
            | none =>
              if o.hasArg = 1 then { σ with optarg := σ.argv[σ.optind]?, optind := σ.optind + 1 } else σ
          else σ
        if o.hasArg = 1 ∧ σ.optarg = none then
          (.badarg, { σ with optopt := none, optind := σ.optind - 1 })                   -- 1646-1666
        else
          (.long, { σ with getoptval := o.val })                                        -- 1681-1688

/-- The outcome of argtable3.c:1737-1815: the call returns, or falls through with `place` inside an option word. -/
inductive Fetch where
  | ret (r : GRet) (σ : GState)
  | go (σ : GState)
deriving Repr, DecidableEq

/-- argtable3.c:1740-1757, at the end of the argument vector. -/
def endOfWords (σ : GState) : GState :=
  match σ.nonoptStart, σ.nonoptEnd with
  | some s, some e =>
    { permuted s e σ.optind σ with
      place := [], optind := σ.optind - (e - s), nonoptStart := none, nonoptEnd := none }
  | some s, none => { σ with place := [], optind := s, nonoptStart := none, nonoptEnd := none }
  | none, _ => { σ with place := [], nonoptStart := none, nonoptEnd := none }

/-- argtable3.c:1781-1789, bookkeeping when a non-option word is skipped. -/
def noteNonOption (σ : GState) : GState :=
  match σ.nonoptStart, σ.nonoptEnd with
  | none, _ => { σ with nonoptStart := some σ.optind }
  | some s, some e =>
    { permuted s e σ.optind σ with nonoptStart := some (σ.optind - (e - s)), nonoptEnd := none }
  | some _, none => σ

/-- argtable3.c:1794-1795, bookkeeping when an option word is found. -/
def noteOption (σ : GState) : GState :=
  if σ.nonoptStart ≠ none ∧ σ.nonoptEnd = none then { σ with nonoptEnd := some σ.optind } else σ

/-- argtable3.c:1800-1814, the word `--`. -/
def dashDash (σ : GState) : GState :=
  match σ.nonoptStart, σ.nonoptEnd with
  | some s, some e =>
    { permuted s e (σ.optind + 1) σ with
      place := [], optind := σ.optind + 1 - (e - s), nonoptStart := none, nonoptEnd := none }
  | _, _ => { σ with place := [], optind := σ.optind + 1, nonoptStart := none, nonoptEnd := none }

/-- argtable3.c:1740-1815, from the test for the end of the argument vector on.  `permute` is `flags & FLAG_PERMUTE`. -/
def nextWord (argc : Nat) (permute : Bool) (σ : GState) : Fetch :=
  if argc ≤ σ.optind then .ret .done (endOfWords σ)
  else
    let w := σ.argv[σ.optind]?.getD []
    if w.head? ≠ some '-' ∨ w.tail = [] then                                             -- 1758-1793
      if permute then
        nextWord argc permute { noteNonOption σ with place := [], optind := σ.optind + 1 } -- 1790-1792
      else .ret .done { σ with place := [] }                                              -- 1773-1779
    else if w.tail = ['-'] then .ret .done (dashDash (noteOption σ))                       -- 1800-1814
    else .go { noteOption σ with place := w.tail }                                        -- 1800, `*++place`
termination_by argc - σ.optind

/-- argtable3.c:1737-1815, from the label `start`: fetch a new word if the last one is used up. -/
def fetchWord (argc : Nat) (permute : Bool) (σ : GState) : Fetch :=
  if σ.optreset = true ∨ σ.place = [] then nextWord argc permute { σ with optreset := false } else .go σ

/-- argtable3.c:1847-1911, the short-option part; `options` is the option string. -/
def parseShort (argc : Nat) (options : CStr) (σ : GState) : GRet × GState :=
  match σ.place with
  | [] => (.badch, σ)                          -- not reached: `place` is inside a word here
  | c :: rest =>
    let σ := { σ with place := rest }                                                    -- 1847 `*place++`
    match strchr options c with
    | some oli =>
      if c = ':' ∨ (c = '-' ∧ rest ≠ []) then bad c rest σ
      else if oli.tail.head? ≠ some ':' then                                              -- 1890-1892
        (.short c, if rest = [] then { σ with optind := σ.optind + 1 } else σ)
      else if rest ≠ [] then                                                              -- 1895-1896
        (.short c, { σ with optarg := some rest, place := [], optind := σ.optind + 1 })
      else if oli.tail.tail.head? ≠ some ':' then                                          -- 1897-1906
        let σ := { σ with optind := σ.optind + 1 }
        if argc ≤ σ.optind then (.badarg, { σ with place := [], optopt := some c })
        else (.short c, { σ with optarg := σ.argv[σ.optind]?, place := [], optind := σ.optind + 1 })
      else (.short c, { σ with optarg := none, place := [], optind := σ.optind + 1 })       -- 1907-1909
    | none => bad c rest σ
where
  /-- argtable3.c:1849-1869. -/
  bad (c : Char) (rest : CStr) (σ : GState) : GRet × GState :=
    if c = '-' ∧ rest = [] then (.done, σ)                                                 -- 1855-1856
    else
      let σ := if rest = [] then { σ with optind := σ.optind + 1 } else σ                   -- 1857-1858
      (.badch, { σ with optopt := some c })                                               -- 1867-1868

/-- argtable3.c:1817-1911: the option at `place`.  The `-W` form (argtable3.c:1870-1889) needs a ';' in the option string, which
`alloc_shortoptions` writes only for a short option ';'; not modelled. -/
def readOption (argc : Nat) (options : CStr) (longOpts : List LongOpt) (σ : GState) : GRet × GState :=
  match σ.place with
  | '-' :: body =>                                                                        -- 1823-1845
    if body = [] then (.badarg, { σ with place := [] })                                   -- 1830-1832
    else
      let (r, σ) := parseLongOptions longOpts { σ with place := body }
      (r, { σ with place := [] })
  | _ => parseShort argc options σ

/-- argtable3.c:1710-1736, what a call does before the label `start`. -/
def beginCall (σ : GState) : GState :=
  let σ := if σ.optind = 0 then { σ with optind := 1, optreset := true } else σ             -- 1710-1711
  let σ := { σ with optarg := none }                                                     -- 1734
  if σ.optreset then { σ with nonoptStart := none, nonoptEnd := none } else σ              -- 1735-1736

/-- argtable3.c:1695-1912 `getopt_internal`, called as `getopt_long` (argtable3.c:1939-1946); `posix` says whether
POSIXLY_CORRECT is in the environment. -/
def getoptLong (posix : Bool) (argc : Nat) (options : CStr) (longOpts : List LongOpt) (σ : GState) : GRet × GState :=
  match fetchWord argc (!posix) (beginCall σ) with
  | .ret r σ => (r, σ)
  | .go σ => readOption argc options longOpts σ

end Judger
