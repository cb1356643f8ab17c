import Verif.Base.C

/-!
# `gcd` and `permute_args` (argtable3.c:1470-1523)

The indices are C ints; they are positions in the argument vector or one past its end, so they are modelled as natural numbers.
`none` stands for undefined behaviour: a division by zero or an access outside the vector.
-/

set_option autoImplicit false

namespace Judger

/-- argtable3.c:1473-1486 `gcd`; the remainder by 0 is undefined. -/
def cGcd (a b : Nat) : Option Nat :=
  if _h : b = 0 then none
  else if a % b = 0 then some b                                -- 1478, 1480, 1485
  else cGcd b (a % b)                                          -- 1479-1483
termination_by b
decreasing_by exact Nat.mod_lt _ (Nat.pos_of_ne_zero _h)

/-- argtable3.c:1511-1521, the inner loop: `j` rounds to go, `pos` as left by the last one; `nn`, `no` are `nnonopts`, `nopts`, `e` is
`panonopt_end`. -/
def permuteCycle (nn no e cstart : Nat) : Nat → Nat → List CStr → Option (List CStr)
  | 0, _, argv => some argv
  | j + 1, pos, argv =>
    let pos := if pos ≥ e then pos - nn else pos + no          -- 1512-1515
    match argv[pos]?, argv[cstart]? with                       -- 1516-1520
    | some swap, some x => permuteCycle nn no e cstart j pos ((argv.set pos x).set cstart swap)
    | _, _ => none

/-- argtable3.c:1508-1522, the outer loop: `k` rounds to go, `i` as in the code. -/
def permuteCycles (nn no e cyclelen : Nat) : Nat → Nat → List CStr → Option (List CStr)
  | 0, _, argv => some argv
  | k + 1, i, argv =>
    match permuteCycle nn no e (e + i) cyclelen (e + i) argv with  -- 1509-1510
    | some argv => permuteCycles nn no e cyclelen k (i + 1) argv
    | none => none

/-- argtable3.c:1493-1523 `permute_args(s, e, o, argv)`. -/
def permuteArgs (s e o : Nat) (argv : List CStr) : Option (List CStr) :=
  let nn := e - s                                              -- 1503
  let no := o - e                                              -- 1504
  match cGcd nn no with                                        -- 1505
  | none => none
  | some ncycle => permuteCycles nn no e ((o - s) / ncycle) ncycle 0 argv  -- 1506-1508

end Judger
