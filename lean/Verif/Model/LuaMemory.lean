import Verif.Model.Lua
import Verif.Spec.Heap

/-!
# The Lua binding: the strings it copies

What `bindings/Lua/judger.c` does with allocated memory, in order, alongside `Model/Lua`.  Fields are taken from the table by `get`, which is `none` where
indexing raises a Lua error (the `__index` of a metatable, or something that is no table); each name is asked for once.  A Lua error leaves
`global_judge` by a long jump.  `malloc` succeeds.  What Lua allocates for itself is its own affair.
-/

set_option autoImplicit false

namespace Judger.Lua

open Spec

/-- The block pointed to by the string field with this number in `arg_mask`, and by element `j` of the array with this number. -/
def strBlock (i : Nat) : Nat := i
@[inherit_doc strBlock] def itemBlock (i j : Nat) : Nat := 1000 * (i + 1) + j

/-- judger.c:85-90 `_strdup` of the text `s` (`dup`): `malloc` and `strcpy`. -/
def dupEv (b : Nat) (s : CStr) : List MemEv := .alloc b (s.length + 1) :: (List.range (s.length + 1)).map fun j => .write b j 1

/-- Pointers stored in the configuration, with the lengths of the texts; the others are NULL (line 155). -/
abbrev Stored := List (Nat × Nat)

/-- judger.c:170-180: what is allocated for field number `i`, and the pointers stored. -/
def fieldEv (i : Nat) (v : LuaVal) : List MemEv × Stored :=
  match v with
  | .string s => (dupEv (strBlock i) (dup s), [(strBlock i, (dup s).length)])
  | .table es =>
    let ws := (checkStringTable (256 - 1) 0 es).1
    (ws.flatMap fun w => dupEv (itemBlock i w.1) w.2, ws.map fun w => (itemBlock i w.1, w.2.length))
  | _ => ([], [])

/-- judger.c:92-106 `destory_config`: the pointers in this order; `free(NULL)` does nothing. -/
def destroyOrder : List Nat :=
  [strBlock 5, strBlock 6, strBlock 7, strBlock 8, strBlock 9, strBlock 10] ++
    (List.range 256).flatMap fun i => [itemBlock 11 i, itemBlock 12 i]
@[inherit_doc destroyOrder] def destroyEv (st : Stored) : List MemEv :=
  (destroyOrder.filter fun b => (st.map (·.1)).contains b).map .free

/-- How the loop over the fields ends. -/
inductive LoopEnd where
  /-- indexing raised an error -/
  | raised
  /-- 161-162, 174-175: the field is refused -/
  | refused (st : Stored)
  | done (st : Stored)

/-- judger.c:158-184: the loop from field number `i` on; `st` is stored already. -/
def loopEv (get : CStr → Option LuaVal) : Nat → List (CStr × Ty × Bool) → Stored → List MemEv × LoopEnd
  | _, [], st => ([], .done st)
  | i, m :: ms, st =>
    match get m.1 with
    | none => ([], .raised)
    | some v =>
      if !v.is m.2.1 && !(m.2.2 && v.isNil) then ([], .refused st)
      else
        let f := fieldEv i v
        if refused (fun _ => v) m then (f.1, .refused (st ++ f.2))
        else
          let r := loopEv get (i + 1) ms (st ++ f.2)
          (f.1 ++ r.1, r.2)

/-- What `run()` (and the child it forks) may read of the configuration: every text. -/
def useEv (st : Stored) : List MemEv := st.flatMap fun p => (List.range (p.2 + 1)).map fun j => .read p.1 j 1

/-- judger.c:134-201 `global_judge`: what is done with memory, and how it ends.  `height` is the number of arguments, `table` says whether the first is a
table (157), `get` indexes the last (160). -/
def callEv (height : Nat) (table : Bool) (get : CStr → Option LuaVal) (prior : Result) (e : RunEnv) : List MemEv × CallOut :=
  if table then
    let r := loopEv get 0 argMask []
    match r.2 with
    | .raised => (r.1, .error)
    | .refused st => (r.1 ++ destroyEv st, .error)                                          -- 162, 174-175
    | .done st =>
      match globalJudge (fun k => (get k).getD .nil) with
      | .error _ => (r.1, .error)                                                         -- does not happen
      | .runs c =>
        match run c prior e with
        | .inChild _ => (r.1 ++ useEv st, .inChild)
        | .returned res _ =>
          if height + 1 = 2 then (r.1 ++ useEv st ++ destroyEv st, .returns (resultTable res))   -- 199
          else (r.1 ++ useEv st, .abort)                                                  -- 197
  else ([], .error)

end Judger.Lua
