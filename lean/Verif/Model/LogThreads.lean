import Verif.Model.Logger

/-!
# `log_write` in several threads of one process

Every run() opens its own log handle, but the texts of an entry are put together in static buffers (logger.c:36-40), of which a process has one each.

Simplifications.  Each of `strftime`, `snprintf` and `vsnprintf` is one step: what one of them stores while another thread is in the midst of one is not
looked at (C calls it undefined), so that more can go wrong than the model shows.  The lock, the write of all bytes and the unlock are one step: what
becomes of failing calls is C44 and C46, and that `flock` keeps the pieces of several handles apart is C45.  `now` (logger.c:40-41) is read by the same
thread at once, and `date` is the text that comes of it.
-/

set_option autoImplicit false

namespace Judger

/-- The arguments of one call `log_write(level, source_filename, line, log_fp, fmt, ...)` (logger.c:30) and the time at which it is made (logger.c:41). -/
structure LogCall where
  level : Nat
  file : CStr
  line : Int
  date : CStr
  msg : CStr
deriving Repr, DecidableEq

/-- Where a thread is in `log_write`. -/
inductive TPc where
  | idle
  /-- after logger.c:43 -/
  | dated (c : LogCall)
  /-- after logger.c:44 -/
  | lined (c : LogCall)
  /-- after logger.c:47 -/
  | told (c : LogCall)
  /-- after logger.c:50-52, with the local variable `count` -/
  | formatted (c : LogCall) (count : Nat)
deriving Repr, DecidableEq

/-- A process with threads that log. -/
structure TLog where
  /-- `static char datetime[100]` (logger.c:38) -/
  datetime : CStr
  /-- `static char line_str[20]` (logger.c:39) -/
  lineStr : CStr
  /-- `static char log_buffer[log_buffer_size]` (logger.c:37) -/
  logBuffer : CStr
  /-- `static char buffer[log_buffer_size]` (logger.c:36), all of its bytes -/
  buffer : List Cell
  pc : Nat → TPc
  /-- every call begun so far -/
  begun : List LogCall
  /-- what has been appended to the log -/
  appended : List Cell
  /-- bytes beyond the end of `buffer` were read -/
  overRead : Bool

/-- Static storage starts as zeros (logger.c:36-40). -/
def TLog.init : TLog where
  datetime := []
  lineStr := []
  logBuffer := []
  buffer := List.replicate logBufferSize (some '\x00')
  pc := fun _ => .idle
  begun := []
  appended := []
  overRead := false

def TLog.setPc (s : TLog) (i : Nat) (p : TPc) : TLog := { s with pc := fun j => if j = i then p else s.pc j }

/-- logger.c:50-52: the text that a call formats, from its own arguments and from what is in the static buffers. -/
def TLog.text (s : TLog) (c : LogCall) : CStr :=
  levelNote c.level ++ c!" [" ++ s.datetime ++ c!"] [" ++ c.file ++ c!":" ++ s.lineStr ++ c!"]" ++ s.logBuffer ++ c!"\n"

/-- `snprintf` stores its characters and a NUL at the beginning of the buffer and leaves the other bytes. -/
def overlay (new old : List Cell) : List Cell := new ++ old.drop new.length

/-- What a step of `log_write` in thread `i` was. -/
inductive TDo where
  | inner
  /-- the entry of this call was written (logger.c:55-60) -/
  | wrote (c : LogCall)
deriving Repr, DecidableEq

/-- A step of thread `i` (logger.c:30-66). -/
inductive TStep (i : Nat) : TLog → TDo → TLog → Prop
  /-- logger.c:41-43 -/
  | date (s : TLog) (c : LogCall) (h : s.pc i = .idle) :
      TStep i s .inner { s.setPc i (.dated c) with datetime := snprintfStr 99 c.date, begun := c :: s.begun }
  /-- logger.c:44 -/
  | line (s : TLog) (c : LogCall) (h : s.pc i = .dated c) : TStep i s .inner { s.setPc i (.lined c) with lineStr := snprintfStr 19 (showInt c.line) }
  /-- logger.c:45-48 -/
  | tell (s : TLog) (c : LogCall) (h : s.pc i = .lined c) : TStep i s .inner { s.setPc i (.told c) with logBuffer := snprintfStr logBufferSize c.msg }
  /-- logger.c:50-52 -/
  | format (s : TLog) (c : LogCall) (h : s.pc i = .told c) :
      TStep i s .inner { s.setPc i (.formatted c (s.text c).length) with buffer := overlay (snprintfCells logBufferSize (s.text c)) s.buffer }
  /-- logger.c:54-60 -/
  | write (s : TLog) (c : LogCall) (count : Nat) (h : s.pc i = .formatted c count) :
      TStep i s (.wrote c)
        { s.setPc i .idle with appended := s.appended ++ bytesOf s.buffer count, overRead := s.overRead || decide (logBufferSize < count) }

/-- `TRuns alone calls s`: the process has come to `s`, and `calls` are the calls that have written, in order.  With `alone`, a thread enters `log_write`
only while no other is inside. -/
inductive TRuns (alone : Bool) : List LogCall → TLog → Prop
  | init : TRuns alone [] TLog.init
  | inner {cs : List LogCall} {s s' : TLog} (i : Nat) (h : TRuns alone cs s) (hs : TStep i s .inner s')
      (ha : alone = true → s.pc i = .idle → ∀ j, j ≠ i → s.pc j = .idle) : TRuns alone cs s'
  | wrote {cs : List LogCall} {s s' : TLog} (i : Nat) (c : LogCall) (h : TRuns alone cs s) (hs : TStep i s (.wrote c) s') :
      TRuns alone (cs ++ [c]) s'

end Judger
