import Verif.Model.Node

/-!
# The numbers of a Node call: `bindings/NodeJS/judger.cc:34-39`

`JsVal.number` in `Model/Node` holds what is defined here.
-/

set_option autoImplicit false

namespace Judger.Node

/-- A JavaScript number.  `finite m e` is m / 2^e; every finite double is of this form. -/
inductive JsNumber where
  | nan
  | infinite (negative : Bool)
  | finite (m : Int) (e : Nat)
deriving Repr, DecidableEq

/-- `Integer::Value()` of a double outside the range of `int64_t`: newer versions of V8 take the nearest value; older ones convert it with a cast, which on
x86-64 gives the smallest. -/
def farValue (nearest negative : Bool) : Int := if nearest && !negative then LONG_MAX else LONG_MIN

/-- judger.cc:35, 39: `val->ToInteger(context)`, which drops the fraction and makes NaN 0 (ECMAScript, ToInteger), and then `Value()`. -/
def toInteger (nearest : Bool) : JsNumber → Int
  | .nan => 0
  | .infinite negative => farValue nearest negative
  | .finite m e =>
    let n := m.tdiv (2 ^ e)
    if LONG_MIN ≤ n ∧ n ≤ LONG_MAX then n else farValue nearest (decide (n < 0))

end Judger.Node
