import Verif.Spec.Node
import Verif.Model.NodeNumber

/-!
# What the numbers of a Node call say
-/

set_option autoImplicit false

namespace Judger.Spec.Node

open Judger.Node Judger.Spec.Cli

/-- A call as JavaScript code makes it: a number or a text for an option, or nothing; the two lists, or nothing. -/
structure NumberCall where
  num : Opt → Option JsNumber
  text : Opt → Option CStr
  args : Option (List CStr)
  env : Option (List CStr)

/-- What the binding makes of the numbers. -/
def NumberCall.request (nearest : Bool) (k : NumberCall) : Request where
  int := fun o => (k.num o).map (toInteger nearest)
  text := k.text
  args := k.args
  env := k.env

/-- The number is this integer. -/
def IsNumber (x : JsNumber) (n : Int) : Prop :=
  match x with
  | .finite m e => m = n * 2 ^ e
  | _ => False

/-- The number is at least this integer. -/
def AtLeast (x : JsNumber) (n : Int) : Prop :=
  match x with
  | .finite m e => n * 2 ^ e ≤ m
  | .infinite negative => negative = false
  | .nan => False

/-- The number is at most this integer. -/
def AtMost (x : JsNumber) (n : Int) : Prop :=
  match x with
  | .finite m e => m ≤ n * 2 ^ e
  | .infinite negative => negative = true
  | .nan => False

/-- The number is less than this integer. -/
def Less (x : JsNumber) (n : Int) : Prop := AtMost x n ∧ ¬IsNumber x n

/-- The number is more than this integer. -/
def More (x : JsNumber) (n : Int) : Prop := AtLeast x n ∧ ¬IsNumber x n

/-- The integer is the number with its fraction dropped; NaN counts as 0. -/
def Shortened (x : JsNumber) (n : Int) : Prop :=
  (x = .nan ∧ n = 0) ∨ (AtLeast x 0 ∧ AtLeast x n ∧ Less x (n + 1)) ∨ (AtMost x 0 ∧ AtMost x n ∧ More x (n - 1))

example : Shortened (.finite 5 1) 2 ∧ Shortened (.finite (-5) 1) (-2) ∧ ¬Shortened (.finite (-5) 1) (-3) := by
  simp [Shortened, AtLeast, AtMost, Less, More, IsNumber]

end Judger.Spec.Node
