import Verif.Base.C

/-!
# `logger.c`

`log_write` at the level of the bytes handed to `write`, and a transition system for several processes that write to one log.

Simplifications.  The message is the text `vsnprintf` would produce without a size limit; the date is the text `strftime`
produces (fewer than 99 characters, logger.c:43).  A file name has fewer than 2^31 - 10000 characters (it is `__FILE__`), so that
`snprintf` can return the length.
-/

set_option autoImplicit false

namespace Judger

/-- logger.c:11 `log_buffer_size`. -/
def logBufferSize : Nat := 8192

/-- logger.c:31 `LOG_LEVEL_NOTE[level]`; levels are 0..3 (logger.h:4-7). -/
def levelNote : Nat → CStr
  | 0 => c!"FATAL"
  | 1 => c!"WARNING"
  | 2 => c!"INFO"
  | _ => c!"DEBUG"

/-- A byte of a static buffer: known, or left over from earlier calls (or from beyond the buffer). -/
abbrev Cell := Option Char

/-- `snprintf(buffer, n, "%s", s)`: at most `n - 1` characters and a NUL are stored; the rest is untouched. -/
def snprintfCells (n : Nat) (s : CStr) : List Cell := (s.take (n - 1)).map some ++ [some '\x00']

/-- What `snprintf` leaves readable as a C string. -/
def snprintfStr (n : Nat) (s : CStr) : CStr := s.take (n - 1)

/-- `write(fd, buffer, count)` hands these bytes to the kernel: the cells of the buffer, and unknown ones after them. -/
def bytesOf (cells : List Cell) (count : Nat) : List Cell := cells.take count ++ List.replicate (count - cells.length) none

/-- The outcome of the system calls of one `log_write`. -/
structure LogEnv where
  /-- the handle is not NULL (logger.c:32) -/
  handle : Bool
  /-- text of the date (logger.c:40-43) -/
  date : CStr
  /-- `flock(LOCK_EX)` succeeded (logger.c:55) -/
  lockOk : Bool
  /-- how many bytes `write` took; `none` for -1 (logger.c:56) -/
  write : Option Nat
  /-- `flock(LOCK_UN)` succeeded (logger.c:60) -/
  unlockOk : Bool
deriving Repr, DecidableEq

/-- What one `log_write` did. -/
structure LogOut where
  /-- bytes appended to the file -/
  appended : List Cell
  stderr : CStr
  /-- the lock is held on return -/
  locked : Bool
  /-- bytes beyond the end of the 8192-byte buffer were read -/
  overRead : Bool
deriving Repr, DecidableEq

/-- logger.c:50-52, the text formatted into `buffer` before truncation. -/
def logLine (level : Nat) (file : CStr) (line : Int) (date msg : CStr) : CStr :=
  levelNote level ++ c!" [" ++ snprintfStr 99 date ++ c!"] [" ++ file ++ c!":" ++ snprintfStr 19 (showInt line) ++ c!"]" ++
    snprintfStr logBufferSize msg ++ c!"\n"

/-- logger.c:30-66 `log_write(level, source_filename, line, log_fp, fmt, ...)`. -/
def logWrite (e : LogEnv) (level : Nat) (file : CStr) (line : Int) (msg : CStr) : LogOut :=
  if e.handle = false then ⟨[], c!"can not open log file", false, false⟩
  else
    let text := logLine level file line e.date msg
    let count := text.length
    let bytes := bytesOf (snprintfCells logBufferSize text) count
    if e.lockOk then
      match e.write with
      | none => ⟨[], c!"write error", true, decide (logBufferSize < count)⟩
      | some n => ⟨bytes.take n, [], !e.unlockOk, decide (logBufferSize < count)⟩
    else ⟨[], c!"flock error", false, false⟩

/-! ## Several writers -/

/-- Where a writer is in `log_write`. -/
inductive WriterPc where
  | idle
  /-- before `flock(LOCK_EX)` (logger.c:55) -/
  | want (entry : List Char)
  /-- inside `write` (logger.c:56), with these bytes still to go -/
  | writing (entry rest : List Char)
  /-- before `flock(LOCK_UN)` (logger.c:60) -/
  | written
  /-- the process is gone -/
  | gone
deriving Repr, DecidableEq

/-- Any number of processes logging to one file.  `ofd i` is the open file description of process `i`: `flock` locks belong to
open file descriptions, and a forked child shares its parent's. -/
structure LogWorld where
  file : List Char
  pc : Nat → WriterPc
  /-- the description that holds the lock -/
  lock : Option Nat
  /-- entries written completely, in order -/
  finished : List (List Char)
  /-- some `write` failed or took only a part -/
  faulty : Bool

def LogWorld.init (file : List Char) : LogWorld where
  file := file
  pc := fun _ => .idle
  lock := none
  finished := []
  faulty := false

def LogWorld.setPc (w : LogWorld) (i : Nat) (p : WriterPc) : LogWorld :=
  { w with pc := fun j => if j = i then p else w.pc j }

/-- One step of process `i`.  `write` may put its bytes into the file in any number of pieces. -/
inductive LogStep (ofd : Nat → Nat) : LogWorld → LogWorld → Prop
  | call (w : LogWorld) (i : Nat) (entry : List Char) (h : w.pc i = .idle) : LogStep ofd w (w.setPc i (.want entry))
  /-- flock(LOCK_EX): waits until no other description holds the lock -/
  | lock (w : LogWorld) (i : Nat) (entry : List Char) (h : w.pc i = .want entry) (hl : w.lock = none ∨ w.lock = some (ofd i)) :
      LogStep ofd w { w.setPc i (.writing entry entry) with lock := some (ofd i) }
  /-- flock fails (logger.c:62-65) -/
  | lockFails (w : LogWorld) (i : Nat) (entry : List Char) (h : w.pc i = .want entry) : LogStep ofd w (w.setPc i .idle)
  | piece (w : LogWorld) (i : Nat) (entry rest : List Char) (n : Nat) (h : w.pc i = .writing entry rest) :
      LogStep ofd w { w.setPc i (.writing entry (rest.drop n)) with file := w.file ++ rest.take n }
  | writeDone (w : LogWorld) (i : Nat) (entry : List Char) (h : w.pc i = .writing entry []) :
      LogStep ofd w { w.setPc i .written with finished := w.finished ++ [entry] }
  /-- `write` returns having taken only a part; the code does not look (logger.c:56) -/
  | writeShort (w : LogWorld) (i : Nat) (entry rest : List Char) (h : w.pc i = .writing entry rest) (hr : rest ≠ []) :
      LogStep ofd w { w.setPc i .written with faulty := true }
  /-- `write` returns -1: `log_write` returns without unlocking (logger.c:56-59) -/
  | writeFails (w : LogWorld) (i : Nat) (entry : List Char) (h : w.pc i = .writing entry entry) :
      LogStep ofd w { w.setPc i .idle with faulty := true }
  /-- flock(LOCK_UN) -/
  | unlock (w : LogWorld) (i : Nat) (h : w.pc i = .written) : LogStep ofd w { w.setPc i .idle with lock := none }
  /-- the last process with this description closes it or ends; its lock goes with it -/
  | closes (w : LogWorld) (i : Nat) (h : w.pc i = .idle) (hlast : ∀ j, ofd j = ofd i → j = i ∨ w.pc j = .gone) :
      LogStep ofd w { w.setPc i .gone with lock := if w.lock = some (ofd i) then none else w.lock }
  /-- a process closes a description that others still have -/
  | leaves (w : LogWorld) (i : Nat) (h : w.pc i = .idle) : LogStep ofd w (w.setPc i .gone)

inductive LogReach (ofd : Nat → Nat) (file : List Char) : LogWorld → Prop
  | init : LogReach ofd file (LogWorld.init file)
  | step {w w' : LogWorld} (h : LogReach ofd file w) (hs : LogStep ofd w w') : LogReach ofd file w'

end Judger
