import Verif.Spec.Child
import Verif.Spec.Delivery
import Verif.Spec.JsonText

/-! # What stands behind "accepted" -/

set_option autoImplicit false

namespace Judger.Spec

/-- The forked child `p`, on its way through `child_process`, is seen by its parent to change state as `t`:
it has become a program, and what `t` is depends on the program; it has ended by itself before; somebody has ended or stopped it before; or its
behaviour is undefined. -/
inductive Course (c : Config) (ce : ChildEnv) (p : Proc) (t : Termination) : Prop
  | program (q : Proc) (h : Started c ce p q)
  | died (s : Stop) (q : Proc) (h : Died c ce p s q) (hr : Reports s t)
  | interrupted (h : ∀ code, t ≠ .exited code)
  | undefined (q : Proc) (h : childProcess c ce p = .stop .ub q)

/-- `Completed` without the demand that everything works: what the numbers that the kernel hands to `run()` look like. -/
structure Measured (e : RunEnv) (t : Termination) : Prop where
  valid : t.Valid
  status : e.status = t.waitStatus
  normUtime : Normal e.usage.utime
  normStart : Normal e.start
  normFinish : Normal e.finish

/-- An object that says "accepted": its `error` and its `result` are zero. -/
def SaysAccepted (v : JsonText.Value) : Prop := (∃ x, v.get c!"error" = some x ∧ x.IsZero) ∧ ∃ x, v.get c!"result" = some x ∧ x.IsZero

/-- The use did not pass the limit that the command line sets: there is none, or it is -1, or a positive number that the use does not exceed. -/
def Cli.Kept (o : Cli.Opt) (is : List Cli.Item) (used : Int) : Prop :=
  Cli.given o is = [] ∨ ∃ t n, Cli.given o is = [t] ∧ Cli.LooseIntText t n ∧ (n = -1 ∨ (1 ≤ n ∧ used ≤ n))

end Judger.Spec
