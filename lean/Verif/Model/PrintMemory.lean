import Verif.Model.Report
import Verif.Spec.Heap

/-!
# argtable3: the memory of the strings it prints

What the dynamic strings (argtable3.c:923-1210) do with allocated memory, in order, alongside `Model/Report`.  Sizes and offsets are those of x86-64 Linux.
Block 200 is the structure itself, 201 and 202 are in turn `append_data`, 203 is `buff` of `arg_dstr_catf`.  When `malloc` fails, `xmalloc` ends the process
(argtable3.c:356-362).  The arrays in which names of options are put together are local variables (`Model/Report`).
-/

set_option autoImplicit false

namespace Judger.Report

open Spec

/-- The structure, and `buff`. -/
def dsBlock : Nat := 200
@[inherit_doc dsBlock] def buffBlock : Nat := 203

/-- The other block for `append_data`. -/
def otherBlock (cur : Nat) : Nat := if cur = 201 then 202 else 201

/-- argtable3.c:971-978: `data`, `free_proc`, `append_data`, `append_data_size`, `append_used`; `sbuf` is the 201 bytes from 16 on. -/
def dsCells : List (Nat × Nat) := [(0, 8), (8, 8), (224, 8), (232, 4), (236, 4)]

/-- A dynamic string and the number of the block `append_data` points to, if to any. -/
structure PMem where
  d : DStr
  cur : Nat

/-- The first `n` bytes of a block, or of `sbuf`. -/
def writeBytes (b from_ n : Nat) : List MemEv := (List.range n).map fun j => .write b (from_ + j) 1
@[inherit_doc writeBytes] def readBytes (b from_ n : Nat) : List MemEv := (List.range n).map fun j => .read b (from_ + j) 1

/-- argtable3.c:982-989 `arg_dstr_create`. -/
def createEv : List MemEv :=
  .alloc dsBlock 240 :: (dsCells.map fun c => .write dsBlock c.1 c.2) ++ writeBytes dsBlock 16 201 ++                  -- memset
  [.write dsBlock 16 1, .write dsBlock 0 8, .write dsBlock 8 8]

/-- Reading the first `n` bytes of `ds->data`. -/
def readData (p : PMem) (n : Nat) : List MemEv :=
  match p.d.append with
  | none => readBytes dsBlock 16 n
  | some _ => readBytes p.cur 0 n

/-- `strlen(ds->data)`; the bytes read are one more. -/
def dataLen (d : DStr) : Nat := (strlen d.data).getD 0

/-- argtable3.c:1143-1162. -/
def refreshEv (p : PMem) : List MemEv :=
  [.read dsBlock 0 8, .read dsBlock 224 8] ++
  match p.d.append with
  | none => [.read dsBlock 232 4] ++ readData p (dataLen p.d + 1) ++ [.write dsBlock 236 4]
  | some b =>
    [.read dsBlock 236 4, .read p.cur p.d.used 1] ++
    if b[p.d.used]?.getD nul ≠ nul then readData p (dataLen p.d + 1) ++ [.write dsBlock 236 4] else []

/-- argtable3.c:1164-1165: the space is too small. -/
def grows (d : DStr) (newSpace : Nat) : Bool := newSpace + (refreshUsed d).getD 0 ≥ d.size
/-- argtable3.c:1164-1172: the size of the new block. -/
def newSize (d : DStr) (newSpace : Nat) : Nat :=
  let total := newSpace + (refreshUsed d).getD 0
  if total < 100 then 200 else total * 2

/-- argtable3.c:1135-1187 `setup_append_buf`. -/
def setupEv (p : PMem) (newSpace : Nat) : List MemEv :=
  refreshEv p ++ [.read dsBlock 236 4, .read dsBlock 232 4] ++
  (if grows p.d newSpace then
    .alloc (otherBlock p.cur) (newSize p.d newSpace) :: writeBytes (otherBlock p.cur) 0 (newSize p.d newSpace) ++          -- 1173-1174
    (readData p (dataLen p.d + 1) ++ writeBytes (otherBlock p.cur) 0 (dataLen p.d + 1) ++ [.read dsBlock 224 8]) ++       -- 1175-1176
    (if p.d.append.isSome then [.free p.cur] else []) ++                                                               -- 1177
    [.write dsBlock 224 8, .write dsBlock 232 4]                                                                        -- 1179-1180
   else []) ++
  [.read dsBlock 8 8, .write dsBlock 0 8]                                                                               -- 1185-1186

/-- The block `append_data` points to after `setup_append_buf`. -/
def setupCur (p : PMem) (newSpace : Nat) : Nat := if grows p.d newSpace then otherBlock p.cur else p.cur

/-- argtable3.c:1050-1053 `arg_dstr_cat`: `d'` is the string after `setup_append_buf`. -/
def catEv (p : PMem) (s : CStr) (d' : DStr) : List MemEv :=
  setupEv p (s.length + 1) ++
  ([.read dsBlock 0 8] ++ readBytes (setupCur p (s.length + 1)) 0 (dataLen d' + 1) ++ writeBytes (setupCur p (s.length + 1)) (dataLen d') s.length)

/-- argtable3.c:1109-1132, the loop of `arg_dstr_catf` and what follows it; `cat` is the call of `arg_dstr_cat`.  See `catfLoop`. -/
def catfEv (text : CStr) (n : Nat) (cat : List MemEv) : List MemEv :=
  .alloc buffBlock (n + 2) :: writeBytes buffBlock 0 (n + 2) ++ writeBytes buffBlock 0 ((text.take n).length + 1) ++
  readBytes buffBlock 0 ((text.take n).length + 1) ++
  if n = 0 ∨ (text.take n).length < n then readBytes buffBlock 0 ((text.take n).length + 1) ++ cat ++ [.free buffBlock]
  else .free buffBlock :: catfEv text (if text.length > n then text.length else n + n) cat
termination_by text.length + 1 - n
decreasing_by
  rename_i h
  have : n ≤ (text.take n).length := by omega
  have : n ≤ text.length := by rw [List.length_take] at this; omega
  split <;> omega

/-- One call that appends. -/
inductive PrintOp where
  /-- `arg_dstr_cat(ds, s)` -/
  | cat (s : CStr)
  /-- `arg_dstr_catf(ds, fmt, ...)` for a format of this length that gives this text -/
  | catf (fmtLen : Nat) (text : CStr)

/-- What it appends to. -/
def PrintOp.run : PrintOp → DStr → Option DStr
  | .cat s => dstrCat s
  | .catf n t => dstrCatf n t

/-- What is copied by `arg_dstr_cat` in the end. -/
def PrintOp.text : PrintOp → CStr
  | .cat s => s
  | .catf n t => catfLoop t (if 2 * n < 16 then 16 else 2 * n)

/-- What it does with memory. -/
def PrintOp.ev (o : PrintOp) (p : PMem) : List MemEv :=
  let c := catEv p o.text ((setupAppendBuf p.d (o.text.length + 1)).getD dstrCreate)
  match o with
  | .cat _ => c
  | .catf n t => catfEv t (if 2 * n < 16 then 16 else 2 * n) c

/-- A sequence of them. -/
def runOps : List PrintOp → DStr → Option DStr
  | [], d => some d
  | o :: os, d => do runOps os (← o.run d)

/-- What the sequence does with memory. -/
def opsEv : List PrintOp → PMem → List MemEv
  | [], _ => []
  | o :: os, p => o.ev p ++ opsEv os ⟨(o.run p.d).getD dstrCreate, setupCur p (o.text.length + 1)⟩

/-- The string after the sequence, with its block. -/
def opsMem : List PrintOp → PMem → PMem
  | [], p => p
  | o :: os, p => opsMem os ⟨(o.run p.d).getD dstrCreate, setupCur p (o.text.length + 1)⟩

/-- argtable3.c:1045-1048 `arg_dstr_cstr` and `fputs` (2818, 5705, 5787): the text is read. -/
def putsEv (p : PMem) : List MemEv := .read dsBlock 0 8 :: readData p (dataLen p.d + 1)

/-- argtable3.c:991-998 `arg_dstr_destroy`, 1200-1210 `arg_dstr_reset`, 1189-1198 `arg_dstr_free`. -/
def destroyEv (p : PMem) : List MemEv :=
  [.read dsBlock 8 8, .read dsBlock 224 8, .read dsBlock 232 4] ++
  (if p.d.append.isSome ∧ p.d.size > 0 then [.free p.cur, .write dsBlock 224 8, .write dsBlock 232 4] else []) ++
  [.write dsBlock 0 8, .write dsBlock 16 1, .free dsBlock]

/-- argtable3.c:2815-2820 `arg_print_errors`, 5702-5707 `arg_print_syntax`, 5784-5789 `arg_print_glossary`: create, append, print, destroy. -/
def printEv (ops : List PrintOp) : List MemEv :=
  createEv ++ opsEv ops ⟨dstrCreate, 201⟩ ++ putsEv (opsMem ops ⟨dstrCreate, 201⟩) ++ destroyEv (opsMem ops ⟨dstrCreate, 201⟩)

end Judger.Report
