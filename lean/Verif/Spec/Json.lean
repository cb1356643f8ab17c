import Verif.Base.C

/-!
# Reading a JSON object of integers

A reader for the part of JSON (RFC 8259) that a result needs: one object whose member names have no escapes and whose values are
integers.  Anything else is not read.
-/

set_option autoImplicit false

namespace Judger.Spec.Json

inductive Tok where
  | lbrace | rbrace | comma | colon
  | str (s : CStr)
  | num (n : Int)
deriving Repr, DecidableEq

/-- A decimal digit and its value. -/
def digit : Char → Option Nat
  | '0' => some 0 | '1' => some 1 | '2' => some 2 | '3' => some 3 | '4' => some 4
  | '5' => some 5 | '6' => some 6 | '7' => some 7 | '8' => some 8 | '9' => some 9
  | _ => none

/-- The value of a list of digits, read on from `acc`. -/
def digits : Nat → CStr → Option Nat
  | acc, [] => some acc
  | acc, c :: r =>
    match digit c with
    | some d => digits (acc * 10 + d) r
    | none => none

/-- JSON's `int` without sign: at least one digit, no superfluous leading zero. -/
def jsonNat (t : CStr) : Option Nat :=
  if t = [] ∨ (t.head? = some '0' ∧ t ≠ ['0']) then none else digits 0 t

/-- JSON's `number` without fraction and exponent. -/
def jsonInt (t : CStr) : Option Int :=
  if t.head? = some '-' then (jsonNat t.tail).map fun n => -(n : Int) else (jsonNat t).map fun n => (n : Int)

inductive LexState where
  | idle
  | inStr (acc : CStr)
  | inNum (acc : CStr)

/-- What a character does outside strings and numbers: the tokens it is, and the new state. -/
def start (c : Char) : Option (List Tok × LexState) :=
  if c = ' ' ∨ c = '\t' ∨ c = '\n' ∨ c = '\r' then some ([], .idle)
  else if c = '{' then some ([.lbrace], .idle)
  else if c = '}' then some ([.rbrace], .idle)
  else if c = ',' then some ([.comma], .idle)
  else if c = ':' then some ([.colon], .idle)
  else if c = '"' then some ([], .inStr [])
  else if c = '-' ∨ (digit c).isSome then some ([], .inNum [c])
  else none

/-- The tokens of a text. -/
def lex : LexState → CStr → Option (List Tok)
  | .idle, [] => some []
  | .idle, c :: r =>
    match start c with
    | none => none
    | some (ts, st) => (lex st r).map (ts ++ ·)
  | .inStr _, [] => none
  | .inStr acc, c :: r =>
    if c = '"' then (lex .idle r).map (.str acc :: ·)
    else if c = '\\' ∨ c.toNat < 32 then none
    else lex (.inStr (acc ++ [c])) r
  | .inNum acc, [] => (jsonInt acc).map fun n => [.num n]
  | .inNum acc, c :: r =>
    if (digit c).isSome then lex (.inNum (acc ++ [c])) r
    else
      match jsonInt acc, start c with
      | some n, some (ts, st) => (lex st r).map (.num n :: ts ++ ·)
      | _, _ => none

/-- The members of an object after its '{', which is followed by at least one. -/
def members : List Tok → Option (List (CStr × Int))
  | [.str k, .colon, .num n, .rbrace] => some [(k, n)]
  | .str k :: .colon :: .num n :: .comma :: ts => (members ts).map ((k, n) :: ·)
  | _ => none

/-- The members of the object a text denotes. -/
def readObject (t : CStr) : Option (List (CStr × Int)) :=
  match lex .idle t with
  | some (.lbrace :: ts) => if ts = [.rbrace] then some [] else members ts
  | _ => none

example : readObject c!"{ \"a\": -12,\n \"b\" :0}" = some [(c!"a", -12), (c!"b", 0)] := by decide
example : readObject c!"{\"a\": 012}" = none := by decide
example : readObject c!"{\"a\": 1,}" = none := by decide
example : readObject c!"{\"a\": 1" = none := by decide

end Judger.Spec.Json
