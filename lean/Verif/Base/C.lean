import Lean

/-!
# C strings, C integers, decimal text

A C string is the list of its characters before the terminating NUL.  `Char` stands for a C `char`; no model
function depends on the width of a character except where a comment says so.
-/

set_option autoImplicit false

namespace Judger

open Lean in
/-- `c!"abc"` is the list `['a', 'b', 'c']`. -/
macro:max "c!" s:str : term => do
  let elems := s.getString.toList.map fun c => Syntax.mkCharLit c
  `(([$(elems.toArray),*] : List Char))

/-- A C string: its characters up to, and not including, the terminating NUL. -/
abbrev CStr := List Char

/-- `INT_MAX`, `INT_MIN` of `<limits.h>` (32-bit `int`, x86-64 Linux). -/
def INT_MAX : Int := 2147483647
@[inherit_doc INT_MAX] def INT_MIN : Int := -2147483648
/-- `LONG_MAX`, `LONG_MIN` of `<limits.h>` (64-bit `long`, x86-64 Linux). -/
def LONG_MAX : Int := 9223372036854775807
@[inherit_doc LONG_MAX] def LONG_MIN : Int := -9223372036854775808

/-- `x` is a value of C type `int`. -/
def IsInt (x : Int) : Prop := INT_MIN ≤ x ∧ x ≤ INT_MAX
/-- `x` is a value of C type `long`. -/
def IsLong (x : Int) : Prop := LONG_MIN ≤ x ∧ x ≤ LONG_MAX

instance (x : Int) : Decidable (IsInt x) := inferInstanceAs (Decidable (_ ∧ _))
instance (x : Int) : Decidable (IsLong x) := inferInstanceAs (Decidable (_ ∧ _))

/-- The conversion `(int) x` of a wider signed value (gcc: reduction modulo 2^32). -/
def castInt (x : Int) : Int := (x + 2147483648) % 4294967296 - 2147483648
/-- The conversion to a 32-bit unsigned type (`uid_t`, `gid_t`, `unsigned int`). -/
def castU32 (x : Int) : Int := x % 4294967296
/-- The conversion to a 64-bit unsigned type (`rlim_t`, `size_t`). -/
def castU64 (x : Int) : Int := x % 18446744073709551616

/-- The outcome of a C expression whose evaluation may be undefined. -/
inductive CRes (α : Type) where
  | ok (a : α)
  | ub
deriving Repr, DecidableEq

/-- Signed `int` addition: undefined when the mathematical sum is not an `int`. -/
def addInt (a b : Int) : CRes Int := if IsInt (a + b) then .ok (a + b) else .ub

/-- The character of a decimal digit. -/
def digitChar : Nat → Char
  | 0 => '0' | 1 => '1' | 2 => '2' | 3 => '3' | 4 => '4'
  | 5 => '5' | 6 => '6' | 7 => '7' | 8 => '8' | _ => '9'

/-- Decimal digits of a natural number, as `printf("%u")` and Python's `format` print them. -/
def showNat (n : Nat) : CStr :=
  if n < 10 then [digitChar n] else showNat (n / 10) ++ [digitChar (n % 10)]
termination_by n

/-- Decimal text of an integer, as `printf("%d")`, `printf("%ld")` and Python's `format` print it. -/
def showInt (x : Int) : CStr :=
  if x < 0 then '-' :: showNat x.natAbs else showNat x.natAbs

end Judger
