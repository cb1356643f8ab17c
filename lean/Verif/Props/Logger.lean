import Verif.Spec.Log
import Verif.Props.Runner

/-! # C44–C46: the log -/

set_option autoImplicit false

namespace Judger

open Judger.Spec

/-! ## C44 -/

theorem length_showNat (n k : Nat) (h : n < 10 ^ (k + 1)) : (showNat n).length ≤ k + 1 := by
  induction k generalizing n with
  | zero =>
    unfold showNat
    simp at h
    simp [h]
  | succ k ih =>
    unfold showNat
    split
    · simp
    · simp only [List.length_append, List.length_singleton]
      have := ih (n / 10) (by
        rw [Nat.pow_succ] at h
        exact Nat.div_lt_of_lt_mul (by omega))
      omega

theorem length_showInt {x : Int} (h : IsInt x) : (showInt x).length ≤ 11 := by
  unfold IsInt INT_MIN INT_MAX at h
  have h1 : x.natAbs < 10 ^ (9 + 1) := by omega
  have := length_showNat x.natAbs 9 h1
  unfold showInt
  split
  · simp only [List.length_cons]; omega
  · omega

theorem levelNote_eq {level : Nat} (h : level ≤ 3) : levelNote level = levelName level := by
  match level, h with
  | 0, _ | 1, _ | 2, _ | 3, _ => rfl

theorem logLine_eq (level : Nat) (file : CStr) (line : Int) (date msg : CStr) (hv : level ≤ 3) (hl : IsInt line) (hd : date.length ≤ 98)
    (hm : msg.length ≤ 8191) : logLine level file line date msg = logEntry level file line date msg := by
  have h1 : snprintfStr 99 date = date := List.take_of_length_le (by simpa using hd)
  have h2 : snprintfStr 19 (showInt line) = showInt line :=
    List.take_of_length_le (by have := length_showInt hl; simp; omega)
  have h3 : snprintfStr logBufferSize msg = msg := List.take_of_length_le (by simpa [logBufferSize] using hm)
  unfold logLine logEntry
  rw [h1, h2, h3, levelNote_eq hv]

/-- C44, the full claim. -/
def C44_full : Prop :=
  ∀ (e : LogEnv) (level : Nat) (file : CStr) (line : Int) (msg : CStr), level ≤ 3 → IsInt line →
    LogEnv.Works e (logEntry level file line e.date msg).length →
    logWrite e level file line msg = ⟨(logEntry level file line e.date msg).map some, [], false, false⟩

/-- The cells `write` is given, when the text fits. -/
theorem bytesOf_fits (text : CStr) (h : text.length ≤ 8191) :
    bytesOf (snprintfCells logBufferSize text) text.length = text.map some := by
  have ht : text.take (logBufferSize - 1) = text := List.take_of_length_le (by simpa [logBufferSize] using h)
  unfold bytesOf snprintfCells
  rw [ht]
  have hz : text.length - (List.map some text ++ [some '\x00']).length = 0 := by simp
  rw [hz]
  simp

/-- C44, the part that holds: an entry of at most 8191 characters is appended whole and exactly, and nothing outside the
buffer is read.  Missing: longer entries, and a file that takes only a part of the bytes. -/
theorem C44_entry_exact_partial (e : LogEnv) (level : Nat) (file : CStr) (line : Int) (msg : CStr) (hv : level ≤ 3) (hl : IsInt line)
    (hw : LogEnv.Works e (logEntry level file line e.date msg).length)
    (hfit : (logEntry level file line e.date msg).length ≤ 8191) :
    logWrite e level file line msg = ⟨(logEntry level file line e.date msg).map some, [], false, false⟩ := by
  obtain ⟨h1, h2, h3, h4, h5⟩ := hw
  have hm : msg.length ≤ 8191 := by
    simp only [logEntry, List.length_append] at hfit
    omega
  unfold logWrite
  rw [if_neg (by simp [h1]), logLine_eq level file line e.date msg hv hl h5 hm]
  simp only [h2, if_true, h3, h4, bytesOf_fits _ hfit]
  have : ¬ logBufferSize < (logEntry level file line e.date msg).length := by unfold logBufferSize; omega
  simp only [this, decide_false, Bool.not_true]
  congr 1
  exact List.take_of_length_le (by simp)

/-- The entry for a caller that is not root. -/
example : (logWrite ⟨true, c!"2026-01-01 00:00:00", true, some (logEntry 0 c!"runner.c" 39 c!"2026-01-01 00:00:00" c!"Error: ROOT_REQUIRED").length, true⟩
    0 c!"runner.c" 39 c!"Error: ROOT_REQUIRED").appended =
    (logEntry 0 c!"runner.c" 39 c!"2026-01-01 00:00:00" c!"Error: ROOT_REQUIRED").map some := by
  rw [C44_entry_exact_partial ⟨true, c!"2026-01-01 00:00:00", true, some _, true⟩ 0 c!"runner.c" 39 c!"Error: ROOT_REQUIRED" (by decide) (by decide)
    ⟨rfl, rfl, rfl, rfl, by decide⟩ (by simp [logEntry, levelName, showInt, showNat, digitChar])]

/-- What the code does with longer entries: the text is cut at 8191 characters, a NUL byte is written, and everything after
byte 8192 is whatever follows the buffer in memory. -/
theorem C44_long_entry (e : LogEnv) (level : Nat) (file : CStr) (line : Int) (msg : CStr)
    (hw : LogEnv.Works e (logLine level file line e.date msg).length)
    (hlong : 8192 ≤ (logLine level file line e.date msg).length) :
    logWrite e level file line msg =
      ⟨((logLine level file line e.date msg).take 8191).map some ++ some '\x00' ::
        List.replicate ((logLine level file line e.date msg).length - 8192) none, [], false,
        decide (8192 < (logLine level file line e.date msg).length)⟩ := by
  obtain ⟨h1, h2, h3, h4, h5⟩ := hw
  unfold logWrite
  rw [if_neg (by simp [h1])]
  generalize logLine level file line e.date msg = text at *
  simp only [h2, if_true, h3, h4, Bool.not_true, logBufferSize]
  congr 1
  have hlen : (snprintfCells 8192 text).length = 8192 := by
    simp [snprintfCells]
    omega
  unfold bytesOf
  rw [hlen, List.take_of_length_le (by simp [hlen]; omega), List.take_of_length_le (by omega)]
  simp [snprintfCells]

/-- A message of 9000 bytes: the line is longer than the buffer. -/
example : 8192 ≤ (logLine 0 c!"child.c" 93 c!"2026-01-01 00:00:00" (List.replicate 9000 'x')).length := by decide +kernel

/-- C44 is false: for instance for every message of 9000 characters. -/
theorem C44_false : ¬ C44_full := by
  intro h
  obtain ⟨m, hm⟩ : ∃ m : CStr, m.length = 9000 := ⟨List.replicate 9000 'x', List.length_replicate⟩
  have h1 := h ⟨true, [], true, some (logEntry 0 c!"child.c" 40 [] m).length, true⟩ 0 c!"child.c" 40 m (by decide) (by decide)
    ⟨rfl, rfl, rfl, rfl, Nat.zero_le _⟩
  have hov := congrArg LogOut.overRead h1
  unfold logWrite at hov
  have : logBufferSize < (logLine 0 c!"child.c" 40 [] m).length := by
    simp only [logLine, snprintfStr, List.length_append, List.length_take, logBufferSize, hm, levelNote, List.length_cons,
      List.length_nil]
    omega
  simp only [Bool.true_eq_false, if_false, if_true, this, decide_true] at hov

/-- C44 for the messages Judger logs: with a source file name of up to 6000 characters they are always exact. -/
theorem C44_own_messages (e : LogEnv) (level : Nat) (file : CStr) (line : Int) (msg : CStr) (hv : level ≤ 3) (hl : IsInt line)
    (hm : ownMessage msg) (hf : file.length ≤ 6000) (hw : LogEnv.Works e (logEntry level file line e.date msg).length) :
    logWrite e level file line msg = ⟨(logEntry level file line e.date msg).map some, [], false, false⟩ := by
  apply C44_entry_exact_partial e level file line msg hv hl hw
  have h1 := length_showInt hl
  have h2 := hw.2.2.2.2
  have h3 : (levelName level).length ≤ 7 := by
    rw [← levelNote_eq hv]
    unfold levelNote
    split <;> simp
  have h4 : msg.length ≤ 1200 := by
    rcases hm with ⟨code, hc, rfl⟩ | ⟨text, code, ht, hc, rfl⟩
    · simp; omega
    · simp; omega
  simp [logEntry]
  omega

example : ownMessage c!"Error: System errno: Permission denied; Internal errno: EXECVE_FAILED" :=
  .inr ⟨c!"Permission denied", c!"EXECVE_FAILED", by decide, by decide, rfl⟩

example : ∃ e : LogEnv, LogEnv.Works e (logEntry 0 c!"runner.c" 39 e.date c!"Error: ROOT_REQUIRED").length :=
  ⟨⟨true, c!"2026-01-01 00:00:00", true,
    some (logEntry 0 c!"runner.c" 39 c!"2026-01-01 00:00:00" c!"Error: ROOT_REQUIRED").length, true⟩, rfl, rfl, rfl, rfl, by decide⟩

/-! ## C45 -/

/-- C45, the full claim. -/
def C45_full : Prop := ∀ (ofd : Nat → Nat) (old : List Char) (w : LogWorld), LogReach ofd old w → WholeEntries old w

structure LogInv (ofd : Nat → Nat) (old : List Char) (w : LogWorld) : Prop where
  /-- whoever writes or has written holds the lock -/
  holds : ∀ i entry rest, w.pc i = .writing entry rest → w.lock = some (ofd i)
  holds' : ∀ i, w.pc i = .written → w.lock = some (ofd i)
  /-- nobody is writing: the file is whole -/
  whole : (∀ i entry rest, w.pc i ≠ .writing entry rest) → w.file = old ++ w.finished.flatten
  /-- somebody is writing -/
  part : ∀ i entry rest, w.pc i = .writing entry rest →
    ∃ sofar, entry = sofar ++ rest ∧ w.file = old ++ w.finished.flatten ++ sofar
  /-- a held lock is held by a description of somebody busy -/
  busy : ∀ o, w.lock = some o → ∃ i, ofd i = o ∧ (w.pc i = .written ∨ ∃ entry rest, w.pc i = .writing entry rest)

theorem LogStep.faulty_mono {ofd : Nat → Nat} {w w' : LogWorld} (h : LogStep ofd w w') (hf : w'.faulty = false) :
    w.faulty = false := by
  cases h <;> simp_all [LogWorld.setPc]

theorem logInv {ofd : Nat → Nat} (hinj : ∀ i j, ofd i = ofd j → i = j) {old : List Char} {w : LogWorld}
    (h : LogReach ofd old w) (hf : w.faulty = false) : LogInv ofd old w := by
  induction h with
  | init => constructor <;> simp [LogWorld.init]
  | @step w w' hr hs ih =>
    obtain ⟨i1, i1', i2, i3, i4⟩ := ih (hs.faulty_mono hf)
    -- a writer excludes all others
    have excl : ∀ i j, (w.pc i = .written ∨ ∃ e r, w.pc i = .writing e r) → (w.pc j = .written ∨ ∃ e r, w.pc j = .writing e r) →
        i = j := by
      intro i j hi hj
      have hi' : w.lock = some (ofd i) := by rcases hi with h | ⟨e, r, h⟩; exact i1' i h; exact i1 i e r h
      have hj' : w.lock = some (ofd j) := by rcases hj with h | ⟨e, r, h⟩; exact i1' j h; exact i1 j e r h
      rw [hi'] at hj'
      exact hinj i j (Option.some.inj hj')
    cases hs with
    | call i entry h =>
      have hne : ∀ j, w.pc j ≠ .idle → j ≠ i := fun j hj hji => hj (hji ▸ h)
      constructor
      · intro j e r hj
        simp only [LogWorld.setPc] at hj
        split at hj
        · cases hj
        · exact i1 j e r hj
      · intro j hj
        simp only [LogWorld.setPc] at hj
        split at hj
        · cases hj
        · exact i1' j hj
      · intro hall
        apply i2
        intro j e r hj
        have hji := hne j (by simp [hj])
        exact hall j e r (by simp [LogWorld.setPc, hji, hj])
      · intro j e r hj
        simp only [LogWorld.setPc] at hj
        split at hj
        · cases hj
        · exact i3 j e r hj
      · intro o ho
        obtain ⟨j, hj, hb⟩ := i4 o ho
        have hji : j ≠ i := hne j (by rcases hb with hb | ⟨e, r, hb⟩ <;> simp [hb])
        exact ⟨j, hj, by simpa [LogWorld.setPc, hji] using hb⟩
    | lock i entry h hl =>
      -- nobody else is busy
      have hnone : ∀ j, ¬ (w.pc j = .written ∨ ∃ e r, w.pc j = .writing e r) := by
        intro j hb
        have hlj : w.lock = some (ofd j) := by rcases hb with h | ⟨e, r, h⟩; exact i1' j h; exact i1 j e r h
        rcases hl with hl | hl
        · rw [hl] at hlj; cases hlj
        · rw [hl] at hlj
          have := hinj i j (Option.some.inj hlj)
          subst this
          simp [h] at hb
      have hfile : w.file = old ++ w.finished.flatten := i2 (fun j e r hj => hnone j (.inr ⟨e, r, hj⟩))
      constructor
      · intro j e r hj
        simp only [LogWorld.setPc] at hj
        split at hj
        · subst j; rfl
        · exact absurd (.inr ⟨e, r, hj⟩) (hnone j)
      · intro j hj
        simp only [LogWorld.setPc] at hj
        split at hj
        · cases hj
        · exact absurd (.inl hj) (hnone j)
      · intro hall
        exact absurd (by simp [LogWorld.setPc]) (hall i entry entry)
      · intro j e r hj
        simp only [LogWorld.setPc] at hj
        split at hj
        · cases hj
          exact ⟨[], rfl, by simpa [LogWorld.setPc] using hfile⟩
        · exact absurd (.inr ⟨e, r, hj⟩) (hnone j)
      · intro o ho
        refine ⟨i, Option.some.inj ho, .inr ⟨entry, entry, ?_⟩⟩
        simp [LogWorld.setPc]
    | lockFails i entry h =>
      have hne : ∀ j, (w.pc j = .written ∨ ∃ e r, w.pc j = .writing e r) → j ≠ i := by
        rintro j hb rfl
        simp [h] at hb
      constructor
      · intro j e r hj
        simp only [LogWorld.setPc] at hj
        split at hj
        · cases hj
        · exact i1 j e r hj
      · intro j hj
        simp only [LogWorld.setPc] at hj
        split at hj
        · cases hj
        · exact i1' j hj
      · intro hall
        apply i2
        intro j e r hj
        have hji := hne j (.inr ⟨e, r, hj⟩)
        exact hall j e r (by simp [LogWorld.setPc, hji, hj])
      · intro j e r hj
        simp only [LogWorld.setPc] at hj
        split at hj
        · cases hj
        · exact i3 j e r hj
      · intro o ho
        obtain ⟨j, hj, hb⟩ := i4 o ho
        have hji : j ≠ i := hne j hb
        exact ⟨j, hj, by simpa [LogWorld.setPc, hji] using hb⟩
    | piece i entry rest n h =>
      have hbi : w.pc i = .written ∨ ∃ e r, w.pc i = .writing e r := .inr ⟨entry, rest, h⟩
      constructor
      · intro j e r hj
        simp only [LogWorld.setPc] at hj
        split at hj
        · subst j; exact i1 i entry rest h
        · exact i1 j e r hj
      · intro j hj
        simp only [LogWorld.setPc] at hj
        split at hj
        · cases hj
        · exact i1' j hj
      · intro hall
        exact absurd (by simp [LogWorld.setPc]) (hall i entry (rest.drop n))
      · intro j e r hj
        simp only [LogWorld.setPc] at hj
        split at hj
        · cases hj
          obtain ⟨sofar, hs1, hs2⟩ := i3 i entry rest h
          refine ⟨sofar ++ rest.take n, ?_, ?_⟩
          · rw [List.append_assoc, List.take_append_drop]; exact hs1
          · simp only [LogWorld.setPc]
            rw [hs2, List.append_assoc, List.append_assoc]
        · rename_i hji
          exact absurd (excl j i (.inr ⟨e, r, hj⟩) hbi) hji
      · intro o ho
        obtain ⟨j, hj, hb⟩ := i4 o ho
        have hji := excl j i hb hbi
        subst hji
        exact ⟨j, hj, .inr ⟨entry, rest.drop n, by simp [LogWorld.setPc]⟩⟩
    | writeDone i entry h =>
      have hbi : w.pc i = .written ∨ ∃ e r, w.pc i = .writing e r := .inr ⟨entry, [], h⟩
      obtain ⟨sofar, hs1, hs2⟩ := i3 i entry [] h
      constructor
      · intro j e r hj
        simp only [LogWorld.setPc] at hj
        split at hj
        · cases hj
        · exact i1 j e r hj
      · intro j hj
        simp only [LogWorld.setPc] at hj
        split at hj
        · subst j; exact i1 i entry [] h
        · exact i1' j hj
      · intro _
        simp only [LogWorld.setPc]
        rw [hs2]
        simp at hs1
        simp [hs1]
      · intro j e r hj
        simp only [LogWorld.setPc] at hj
        split at hj
        · cases hj
        · rename_i hji
          exact absurd (excl j i (.inr ⟨e, r, hj⟩) hbi) hji
      · intro o ho
        obtain ⟨j, hj, hb⟩ := i4 o ho
        have hji := excl j i hb hbi
        subst hji
        exact ⟨j, hj, .inl (by simp [LogWorld.setPc])⟩
    | writeShort i entry rest h hr => simp at hf
    | writeFails i entry h => simp at hf
    | unlock i h =>
      have hbi : w.pc i = .written ∨ ∃ e r, w.pc i = .writing e r := .inl h
      have hno : ∀ j e r, w.pc j ≠ .writing e r := by
        intro j e r hj
        have := excl j i (.inr ⟨e, r, hj⟩) hbi
        subst this
        rw [h] at hj
        cases hj
      constructor
      · intro j e r hj
        simp only [LogWorld.setPc] at hj
        split at hj
        · cases hj
        · exact absurd hj (hno j e r)
      · intro j hj
        simp only [LogWorld.setPc] at hj
        split at hj
        · cases hj
        · rename_i hji
          exact absurd (excl j i (.inl hj) hbi) hji
      · intro _
        exact i2 hno
      · intro j e r hj
        simp only [LogWorld.setPc] at hj
        split at hj
        · cases hj
        · exact absurd hj (hno j e r)
      · intro o ho
        cases ho
    | closes i h hlast =>
      have hne : ∀ j, (w.pc j = .written ∨ ∃ e r, w.pc j = .writing e r) → j ≠ i := by
        rintro j hb rfl
        simp [h] at hb
      have hkeep : ∀ j, j ≠ i → w.lock = some (ofd j) → (if w.lock = some (ofd i) then none else w.lock) = some (ofd j) := by
        intro j hji hlj
        rw [if_neg, hlj]
        rw [hlj]
        exact fun hh => hji (hinj j i (Option.some.inj hh))
      constructor
      · intro j e r hj
        simp only [LogWorld.setPc] at hj
        split at hj
        · cases hj
        · rename_i hji; exact hkeep j hji (i1 j e r hj)
      · intro j hj
        simp only [LogWorld.setPc] at hj
        split at hj
        · cases hj
        · rename_i hji; exact hkeep j hji (i1' j hj)
      · intro hall
        apply i2
        intro j e r hj
        have hji := hne j (.inr ⟨e, r, hj⟩)
        exact hall j e r (by simp [LogWorld.setPc, hji, hj])
      · intro j e r hj
        simp only [LogWorld.setPc] at hj
        split at hj
        · cases hj
        · exact i3 j e r hj
      · intro o ho
        simp only at ho
        split at ho
        · cases ho
        · obtain ⟨j, hj, hb⟩ := i4 o ho
          have hji : j ≠ i := hne j hb
          exact ⟨j, hj, by simpa [LogWorld.setPc, hji] using hb⟩
    | leaves i h =>
      have hne : ∀ j, (w.pc j = .written ∨ ∃ e r, w.pc j = .writing e r) → j ≠ i := by
        rintro j hb rfl
        simp [h] at hb
      constructor
      · intro j e r hj
        simp only [LogWorld.setPc] at hj
        split at hj
        · cases hj
        · exact i1 j e r hj
      · intro j hj
        simp only [LogWorld.setPc] at hj
        split at hj
        · cases hj
        · exact i1' j hj
      · intro hall
        apply i2
        intro j e r hj
        have hji := hne j (.inr ⟨e, r, hj⟩)
        exact hall j e r (by simp [LogWorld.setPc, hji, hj])
      · intro j e r hj
        simp only [LogWorld.setPc] at hj
        split at hj
        · cases hj
        · exact i3 j e r hj
      · intro o ho
        obtain ⟨j, hj, hb⟩ := i4 o ho
        have hji : j ≠ i := hne j hb
        exact ⟨j, hj, by simpa [LogWorld.setPc, hji] using hb⟩

/-- C45, the part that holds: if every process opened the log itself and no `write` fails or falls short, then in every
schedule of any number of processes the file is a concatenation of whole entries, followed, while somebody holds the lock, by a
prefix of one more.  Missing: a child shares its parent's description (see `C45_false`); short and failed writes. -/
theorem C45_whole_entries_partial (ofd : Nat → Nat) (hinj : ∀ i j, ofd i = ofd j → i = j) (old : List Char) (w : LogWorld)
    (h : LogReach ofd old w) (hf : w.faulty = false) : WholeEntries old w := by
  have inv := logInv hinj h hf
  constructor
  · intro hl
    apply inv.whole
    intro i e r hi
    have := inv.holds i e r hi
    rw [hl] at this
    cases this
  · by_cases hw : ∃ i e r, w.pc i = .writing e r
    · obtain ⟨i, e, r, hi⟩ := hw
      obtain ⟨sofar, h1, h2⟩ := inv.part i e r hi
      exact ⟨e, sofar, ⟨r, h1.symm⟩, h2⟩
    · refine ⟨[], [], List.nil_prefix, ?_⟩
      rw [List.append_nil]
      exact inv.whole (fun i e r hi => hw ⟨i, e, r, hi⟩)

/-- Non-vacuous: two processes, one whole entry and a half. -/
example : ∃ w, LogReach id c!"old\n" w ∧ w.faulty = false ∧ w.file = c!"old\nab\nc" := by
  refine ⟨_, (((((((LogReach.init.step (.call _ 0 c!"ab\n" rfl)).step (.call _ 1 c!"cd\n" rfl)).step (.lock _ 0 c!"ab\n" rfl (.inl rfl))).step
    (.piece _ 0 c!"ab\n" c!"ab\n" 3 rfl)).step (.writeDone _ 0 c!"ab\n" rfl)).step (.unlock _ 0 rfl)).step
    (.lock _ 1 c!"cd\n" rfl (.inl rfl))).step (.piece _ 1 c!"cd\n" c!"cd\n" 1 rfl), rfl, rfl⟩

/-- C45 is false: parent and child share one description, so `flock` does not exclude them, and their entries can mix. -/
theorem C45_false : ¬ C45_full := by
  intro h
  have hr := (((((((((LogReach.init (ofd := fun _ => 0) (file := [])).step (.call _ 0 c!"ab\n" rfl)).step (.call _ 1 c!"cd\n" rfl)).step
    (.lock _ 0 c!"ab\n" rfl (.inl rfl))).step (.lock _ 1 c!"cd\n" rfl (.inr rfl))).step
    (.piece _ 0 c!"ab\n" c!"ab\n" 1 rfl)).step (.piece _ 1 c!"cd\n" c!"cd\n" 3 rfl)).step
    (.piece _ 0 c!"ab\n" c!"b\n" 2 rfl)).step (.writeDone _ 1 c!"cd\n" rfl)).step (.writeDone _ 0 c!"ab\n" rfl)
  have hr := (hr.step (.unlock _ 0 rfl))
  have := (h _ _ _ hr).1 rfl
  revert this
  decide

/-- A second way C45 fails, even if every process opened the log itself: `write` takes only a part of an entry (the disk is
full) and the next writer continues on the same line. -/
theorem C45_short_write : ∃ w, LogReach id [] w ∧ w.lock = none ∧ w.file = c!"acd\n" ∧ w.finished = [c!"cd\n"] := by
  have s1 := (LogReach.init (ofd := id) (file := [])).step (.call _ 0 c!"ab\n" rfl)
  have s2 := s1.step (.lock _ 0 c!"ab\n" rfl (.inl rfl))
  have s3 := s2.step (.piece _ 0 c!"ab\n" c!"ab\n" 1 rfl)
  have s4 := s3.step (.writeShort _ 0 c!"ab\n" c!"b\n" rfl (by decide))
  have s5 := s4.step (.unlock _ 0 rfl)
  have s6 := s5.step (.call _ 1 c!"cd\n" rfl)
  have s7 := s6.step (.lock _ 1 c!"cd\n" rfl (.inl rfl))
  have s8 := s7.step (.piece _ 1 c!"cd\n" c!"cd\n" 3 rfl)
  have s9 := s8.step (.writeDone _ 1 c!"cd\n" rfl)
  exact ⟨_, s9.step (.unlock _ 1 rfl), rfl, rfl, rfl⟩

/-- The only steps after which `faulty` is newly set are those of a writer whose `write` did not take all bytes that were left. -/
theorem faulty_step {ofd : Nat → Nat} {w w' : LogWorld} (h : LogStep ofd w w') (h0 : w.faulty = false) (h1 : w'.faulty = true) :
    ∃ i entry rest, w.pc i = .writing entry rest ∧ (rest ≠ [] ∨ rest = entry) ∧ w'.file = w.file ∧ w'.finished = w.finished := by
  cases h with
  | writeShort i entry rest h hr => exact ⟨i, entry, rest, h, .inl hr, rfl, rfl⟩
  | writeFails i entry h => exact ⟨i, entry, entry, h, .inr rfl, rfl, rfl⟩
  | _ => simp_all [LogWorld.setPc]

/-! ## C46 -/

/-- C46, the full claim: `log_write` never returns with the lock held. -/
def C46_full : Prop :=
  ∀ (e : LogEnv) (level : Nat) (file : CStr) (line : Int) (msg : CStr), e.unlockOk = true →
    (logWrite e level file line msg).locked = false

/-- C46 is false: when `write` fails, `log_write` returns before the unlock. -/
theorem C46_false : ¬ C46_full := by
  intro h
  have := h ⟨true, [], true, none, true⟩ 0 [] 1 [] rfl
  simp [logWrite] at this

/-- C46, the part that holds: the lock is held on return exactly when it was taken and `write` failed; every other outcome
leaves it free.  Missing: the failed write. -/
theorem C46_unlocked_partial (e : LogEnv) (level : Nat) (file : CStr) (line : Int) (msg : CStr) (hu : e.unlockOk = true) :
    (logWrite e level file line msg).locked = true ↔ e.handle = true ∧ e.lockOk = true ∧ e.write = none := by
  unfold logWrite
  cases e.handle <;> cases e.lockOk <;> cases hw : e.write <;> simp [hu]

example : (logWrite ⟨true, [], true, some 3, true⟩ 0 [] 1 c!"x").locked = false := by
  simp [logWrite]

/-- With a failed write the lock stays until the description is closed; then, if no other process has it, it is free. -/
theorem C46_free_after_close (ofd : Nat → Nat) (w : LogWorld) (i : Nat) (h : w.pc i = .idle)
    (hlast : ∀ j, ofd j = ofd i → j = i ∨ w.pc j = .gone) :
    ∃ w', LogStep ofd w w' ∧ w'.pc i = .gone ∧ w'.lock ≠ some (ofd i) := by
  refine ⟨_, .closes w i h hlast, by simp [LogWorld.setPc], ?_⟩
  simp only
  split
  · simp
  · assumption

/-- What the unreleased lock does to others: process 0's `write` failed and it went on to other things; process 1 wants to log
and waits, however long, until process 0 closes the log. -/
theorem C46_blocks_others : ∃ w, LogReach id [] w ∧ w.pc 0 = .idle ∧ w.pc 1 = .want c!"b" ∧ w.lock = some (id 0) ∧ w.file = [] ∧
    ∀ w', LogStep id w w' → (∃ entry rest, w'.pc 1 = .writing entry rest) → False := by
  have s1 := (LogReach.init (ofd := id) (file := [])).step (.call _ 0 c!"a" rfl)
  have s2 := s1.step (.lock _ 0 c!"a" rfl (.inl rfl))
  have s3 := s2.step (.writeFails _ 0 c!"a" rfl)
  refine ⟨_, s3.step (.call _ 1 c!"b" rfl), rfl, rfl, rfl, rfl, ?_⟩
  rintro w' hs ⟨entry, rest, hw⟩
  generalize hv : (LogWorld.setPc _ _ _ : LogWorld) = v at hs
  have h1 : v.pc 1 = .want c!"b" := by rw [← hv]; rfl
  have hl : v.lock = some 0 := by rw [← hv]; rfl
  cases hs with
  | lock i entry' h hl' =>
    rw [hl] at hl'
    rcases hl' with hl' | hl'
    · cases hl'
    · have : 0 = i := by simpa using hl'
      subst this
      simp [LogWorld.setPc, h1] at hw
  | piece i entry' rest' n h =>
    by_cases hi : 1 = i
    · subst hi; rw [h1] at h; cases h
    · simp [LogWorld.setPc, hi, h1] at hw
  | _ => 
    simp only [LogWorld.setPc] at hw
    split at hw
    · cases hw
    · rw [h1] at hw; cases hw

/-- The first judger has failed to write and is the only one with its description. -/
example : ∃ w w', LogReach id [] w ∧ w.lock = some 0 ∧ LogStep id w w' ∧ w'.pc 0 = .gone ∧ w'.lock ≠ some 0 := by
  obtain ⟨w, h1, h2, h3, h4, _⟩ := C46_blocks_others
  obtain ⟨w', h5, h6, h7⟩ := C46_free_after_close id w 0 h2 (fun j h => .inl h)
  exact ⟨w, w', h1, h4, h5, h6, h7⟩

/-- C46 for any number of processes that opened the log themselves: in every schedule without a failed or short write, whoever
holds the lock is inside `log_write`; so a process that has returned from it holds no lock. -/
theorem C46_held_only_inside_partial (ofd : Nat → Nat) (hinj : ∀ i j, ofd i = ofd j → i = j) (old : List Char) (w : LogWorld)
    (h : LogReach ofd old w) (hf : w.faulty = false) (i : Nat) (hl : w.lock = some (ofd i)) :
    w.pc i = .written ∨ ∃ entry rest, w.pc i = .writing entry rest := by
  obtain ⟨j, hj, hb⟩ := (logInv hinj h hf).busy _ hl
  rw [← hinj j i hj]
  exact hb

/-- Non-vacuous: process 0 has written an entry and returned; process 1 is writing and holds the lock. -/
example : ∃ w, LogReach id [] w ∧ w.faulty = false ∧ w.lock = some (id 1) ∧ w.pc 0 = .idle ∧ w.finished = [c!"a"] := by
  have s1 := (LogReach.init (ofd := id) (file := [])).step (.call _ 0 c!"a" rfl)
  have s2 := s1.step (.lock _ 0 c!"a" rfl (.inl rfl))
  have s3 := s2.step (.piece _ 0 c!"a" c!"a" 1 rfl)
  have s4 := s3.step (.writeDone _ 0 c!"a" rfl)
  have s5 := s4.step (.unlock _ 0 rfl)
  have s6 := s5.step (.call _ 1 c!"b" rfl)
  have s7 := s6.step (.lock _ 1 c!"b" rfl (.inl rfl))
  exact ⟨_, s7, rfl, rfl, rfl, rfl⟩

end Judger
