import Verif.Spec.Child

/-!
# How much execve takes

Written from execve(2), "Limits on size of arguments and environment", and fs/exec.c (Linux 4.13 and later); nothing of the code is used.
-/

set_option autoImplicit false

namespace Judger.Spec

/-- Texts with their final NULs. -/
def textBytes (ss : List CStr) : Nat := (ss.map fun s => s.length + 1).sum

/-- What is counted: a pointer for each string (one for the arguments at least), the strings and the path. -/
def execBytes (path : CStr) (argv envp : List CStr) : Nat :=
  8 * (max argv.length 1 + envp.length) + (path.length + 1) + textBytes argv + textBytes envp

/-- What is allowed: a quarter of the soft limit of the stack, not more than 6 MiB, not less than 128 KiB. -/
def execSpace (stack : Int) : Int := max 131072 (min 6291456 (stack / 4))

/-- execve does not answer E2BIG: all together, and each string, is short enough. -/
def FitsExec (stack : Int) (path : CStr) (argv envp : List CStr) : Prop :=
  (execBytes path argv envp : Int) ≤ execSpace stack ∧ ∀ s ∈ path :: (argv ++ envp), s.length + 1 ≤ 131072

/-- The kernel the child runs on answers so: what it starts was short enough for the stack limit of that moment. -/
def MindsSize (c : Config) (e : ChildEnv) (p : Proc) : Prop := ∀ path argv envp q, childProcess c e p = .stop (.execed path argv envp) q →
  FitsExec (q.limits .stack).cur path argv envp

end Judger.Spec
