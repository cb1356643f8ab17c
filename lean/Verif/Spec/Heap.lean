/-!
# Sound use of allocated memory

Written from malloc(3), free(3) and the C standard (6.5, 7.22.3); nothing of the code is used.  A program asks for blocks, writes and reads cells in them
and gives the blocks back.  It does so soundly if every access lies in a block that is allocated at that time, at an address suitable for its type; if it
reads nothing it has not written before, as it was written; and if it frees only what is allocated.
-/

set_option autoImplicit false

namespace Judger.Spec

/-- What a program does with blocks; they are named by numbers.  A cell is given by its offset in the block and its size. -/
inductive MemEv where
  | alloc (block size : Nat)
  | write (block off size : Nat)
  | read (block off size : Nat)
  | free (block : Nat)
deriving Repr, DecidableEq

/-- The allocated blocks with their sizes, and the cells written so far. -/
structure Heap where
  live : List (Nat × Nat)
  cells : List (Nat × Nat × Nat)
deriving Repr, DecidableEq

/-- The size of an allocated block. -/
def Heap.size (h : Heap) (b : Nat) : Option Nat := h.live.lookup b

/-- A cell of this size lies at a suitable address: objects of up to 8 bytes at multiples of their size, larger ones (structures) at multiples of 8.  (malloc
returns multiples of 16.) -/
def aligned (off size : Nat) : Bool := if size ≤ 8 then off % size = 0 else off % 8 = 0

/-- The two cells have a byte in common. -/
def overlaps (c d : Nat × Nat × Nat) : Bool := c.1 = d.1 && decide (c.2.1 < d.2.1 + d.2.2) && decide (d.2.1 < c.2.1 + c.2.2)

/-- One step; `none` if it is not sound.  What is written replaces every cell it overlaps. -/
def Heap.step (h : Heap) : MemEv → Option Heap
  | .alloc b n => if (h.size b).isNone then some ⟨(b, n) :: h.live, h.cells.filter (fun c => c.1 ≠ b)⟩ else none
  | .write b off n =>
    match h.size b with
    | some s => if off + n ≤ s ∧ aligned off n then some ⟨h.live, (b, off, n) :: h.cells.filter (fun c => !overlaps c (b, off, n))⟩ else none
    | none => none
  | .read b off n => if (h.size b).isSome ∧ (b, off, n) ∈ h.cells then some h else none
  | .free b => if (h.size b).isSome then some ⟨h.live.filter (fun l => l.1 ≠ b), h.cells⟩ else none

/-- A sequence of steps. -/
def Heap.run (h : Heap) : List MemEv → Option Heap
  | [] => some h
  | e :: es =>
    match h.step e with
    | some h' => h'.run es
    | none => none

/-- The program uses its memory soundly. -/
def Sound (es : List MemEv) : Prop := ∃ h, Heap.run ⟨[], []⟩ es = some h

/-- And it has given back all of it. -/
def SoundAndFreed (es : List MemEv) : Prop := ∃ h, Heap.run ⟨[], []⟩ es = some h ∧ h.live = []

end Judger.Spec
