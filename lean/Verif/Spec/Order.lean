import Verif.Spec.Cli

/-! # Command lines that differ in the order of their options -/

set_option autoImplicit false

namespace Judger.Spec.Cli

/-- The word `--name=value`. -/
def word (x : Opt × CStr) : CStr := '-' :: '-' :: (x.1.name ++ '=' :: x.2)

/-- The values of option `o`, in order. -/
def valuesOf (o : Opt) (l : List (Opt × CStr)) : List CStr := (l.filter (·.1 = o)).map (·.2)

/-- The same options with the same values, those of the two list options each in the same order. -/
structure Reordered (l l' : List (Opt × CStr)) : Prop where
  perm : l.Perm l'
  args : valuesOf .args l = valuesOf .args l'
  env : valuesOf .env l = valuesOf .env l'

end Judger.Spec.Cli
