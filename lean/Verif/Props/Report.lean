import Verif.Lemmas.ReportHelp
import Verif.Lemmas.ReportReads
import Verif.Props.Cli

/-! # C78–C80: what the command prints about its command line -/

set_option autoImplicit false

namespace Judger

open Judger.Spec Judger.Spec.Cli Judger.Report

/-- Words as the kernel passes them: no NUL characters, at most 131071 of others (`MAX_ARG_STRLEN` counts the terminating NUL). -/
def WordsOk (ws : List CStr) : Prop := ∀ w ∈ ws, Char.ofNat 0 ∉ w ∧ w.length < 131072

/-- The rows are those of the mistakes. -/
theorem errors_rows {posix : Bool} {junk : Cells} {a : CStr} {ws : List CStr} {recs : List ErrRec} {ms : List Mistake}
    (h : MainDoes posix junk (a :: ws) (.errors recs)) (hm : Wrongs posix ws ms) : recs = registerAll maxErrors [] (ms.map toRec) := by
  obtain ⟨evs, rest, h1, h2⟩ := parse_rows hm
  have h3 := argParse_scan (posix := posix) (max := maxErrors) mainShort_eq a ws
  have h1' : scanWords posix (longOptions mainTable 0) ws = some (evs, rest) := h1
  rw [h1'] at h3
  obtain ⟨k, h3⟩ := h3
  obtain ⟨fuel, h⟩ := h
  have h4 := mainDecide_mono (k := k) h
  unfold mainDecide at h4
  rw [h3] at h4
  simp only at h4
  rw [← h2]
  split at h4
  · cases h4
  · split at h4
    · cases h4
    · split at h4
      · simp only [Option.some.injEq, MainOut.errors.injEq] at h4
        exact h4.symm
      · cases h4

theorem main_wrongs {posix : Bool} {junk : Cells} {a : CStr} {ws : List CStr} {out : MainOut}
    (h : MainDoes posix junk (a :: ws) out) : ∃ ms, Wrongs posix ws ms := by
  obtain ⟨is, hs, _⟩ := main_scan h
  obtain ⟨evs, rest, h1, _⟩ := scanWords_of_scan hs
  exact wrongs_total (by rw [h1]; simp)

theorem wrongs_nil (posix : Bool) : Wrongs posix [] [.absent .exePath] :=
  ⟨[], [], [], .nil, .nil _, Or.inr (Or.inl ⟨rfl, by simp, rfl⟩)⟩

/-- C78: whatever the command line, its report is put together inside the buffers it is put together in. -/
theorem C78_report_safe (posix : Bool) (junk : Cells) (argv : List CStr) (hw : WordsOk argv) (recs : List ErrRec)
    (h : MainDoes posix junk argv (.errors recs)) : ∃ T, reportText recs = some T := by
  cases argv with
  | nil =>
    have := (C53_no_words posix junk).unique h
    simp only [MainOut.errors.injEq] at this
    subst this
    exact ⟨_, reportText_rows (ms := [.absent .exePath]) (wrongs_plain (wrongs_nil posix) (by intro w hw; cases hw))⟩
  | cons a ws =>
    obtain ⟨ms, hm⟩ := main_wrongs h
    rw [errors_rows h hm]
    exact ⟨_, reportText_rows (wrongs_plain hm fun w hm => hw w (List.mem_cons_of_mem _ hm))⟩

/-- C79, the full claim: the report is the one the mistakes of the command line call for. -/
def C79_full : Prop :=
  ∀ (posix : Bool) (junk : Cells) (a : CStr) (ws : List CStr) (recs : List ErrRec) (ms : List Mistake), WordsOk ws →
    MainDoes posix junk (a :: ws) (.errors recs) → Wrongs posix ws ms → reportText recs = some (report ms)

/-- C79, the part that holds: so it is when no unknown letter is one of the control characters 1 to 5.  Missing: those (`C79_false`). -/
theorem C79_report_partial (posix : Bool) (junk : Cells) (a : CStr) (ws : List CStr) (recs : List ErrRec) (ms : List Mistake)
    (hw : WordsOk ws) (h : MainDoes posix junk (a :: ws) (.errors recs)) (hm : Wrongs posix ws ms) (hc : ∀ m ∈ ms, ¬m.Control) :
    reportText recs = some (report ms) ∧ ms ≠ [] := by
  have hp := wrongs_plain hm hw
  rw [errors_rows h hm]
  refine ⟨?_, ?_⟩
  · rw [reportText_rows hp, printed_eq (fun m hm => (hp m hm).1) hc]
  · rintro rfl
    obtain ⟨is, _, hd⟩ := main_scan h
    cases hd with
    | errors recs _ _ _ hr => exact hr (errors_rows h hm)

/-- C79, every command line that gets a report has mistakes to be told. -/
theorem C79_told (posix : Bool) (junk : Cells) (a : CStr) (ws : List CStr) (recs : List ErrRec)
    (h : MainDoes posix junk (a :: ws) (.errors recs)) : ∃ ms, Wrongs posix ws ms := main_wrongs h

theorem lineOf_prefix {c : Char} (h : (Mistake.letter c).Control) (x y : List Char) :
    lineOf (.letter c) ++ x ≠ reportLine (Mistake.letter c).text ++ y := by
  obtain ⟨h1, h2⟩ := h
  have hn : c.toNat = 1 ∨ c.toNat = 2 ∨ c.toNat = 3 ∨ c.toNat = 4 ∨ c.toNat = 5 := by omega
  intro he
  have ht := congrArg (List.take 31) he
  revert ht
  simp only [lineOf, Mistake.text, reportLine]
  rcases hn with hn | hn | hn | hn | hn <;> rw [hn] <;> simp [endText]

theorem lines_equal {ms : List Mistake} {x : List Char} (h : ∀ m ∈ ms, NoNul (quoted m)) :
    (ms.map lineOf).flatten ++ x = (ms.map fun m => reportLine m.text).flatten ++ x → ∀ m ∈ ms, ¬m.Control := by
  induction ms with
  | nil => simp
  | cons m ms ih =>
    intro he n hn hcn
    simp only [List.map_cons, List.flatten_cons, List.append_assoc] at he
    by_cases hm : m.Control
    · cases m with
      | letter c => exact lineOf_prefix hm _ _ he
      | _ => exact hm
    · rw [lineOf_eq hm (h m (List.mem_cons_self ..)), List.append_cancel_left_eq] at he
      rcases List.mem_cons.1 hn with rfl | hn
      · exact hm hcn
      · exact ih (fun m hm => h m (List.mem_cons_of_mem _ hm)) he n hn hcn

/-- C79, exactly: the report is the right one if and only if no mistake it has a line for is a control character 1 to 5. -/
theorem C79_exact (posix : Bool) (junk : Cells) (a : CStr) (ws : List CStr) (recs : List ErrRec) (ms : List Mistake)
    (hw : WordsOk ws) (h : MainDoes posix junk (a :: ws) (.errors recs)) (hm : Wrongs posix ws ms) :
    reportText recs = some (report ms) ↔ ∀ m ∈ (if ms.length ≤ 10 then ms else ms.take 9), ¬m.Control := by
  have hp := wrongs_plain hm hw
  rw [errors_rows h hm, reportText_rows hp, Option.some.injEq]
  have key : ∀ l : List Mistake, (∀ m ∈ l, m ∈ ms) → ∀ x, (l.map lineOf).flatten ++ x = (l.map fun m => reportLine m.text).flatten ++ x ↔
      ∀ m ∈ l, ¬m.Control := by
    intro l hl x
    refine ⟨lines_equal fun m hm => (hp m (hl m hm)).1, fun hc => ?_⟩
    rw [List.map_congr_left fun m hm => lineOf_eq (hc m hm) (hp m (hl m hm)).1]
  unfold report printedLines reportLines
  split
  · rw [← key ms (fun _ h => h) c!"Try 'libjudger.so --help' for more information.\n", List.flatMap, List.map_map]
    rfl
  · rw [← key (ms.take 9) (fun m hm => List.mem_of_mem_take hm) (reportLine c!"too many errors to display" ++ c!"Try 'libjudger.so --help' for more information.\n")]
    simp [List.flatMap, Function.comp_def]

/-- The condition can fail with the only line and hold with a mistake beyond the ninth. -/
example : ¬(∀ m ∈ (if [Mistake.letter (Char.ofNat 3)].length ≤ 10 then [Mistake.letter (Char.ofNat 3)] else []), ¬m.Control) ∧
    ∀ m ∈ (List.replicate 10 (Mistake.unknown c!"--x") ++ [Mistake.letter (Char.ofNat 3)]).take 9, ¬m.Control := by
  refine ⟨by simp [Mistake.Control], ?_⟩
  simp [List.replicate, Mistake.Control]

/-- C79 is false of the code: `libjudger.so -^C` (one control character) is told `unexpected argument ""`. -/
theorem C79_false : ¬C79_full := by
  intro h
  have hr : Reads false [['-', Char.ofNat 3]] [.letter (Char.ofNat 3)] [] :=
    .letters [Char.ofNat 3] [] [] [] (by simp) (by decide) .nil
  have hm : Wrongs false [['-', Char.ofNat 3]] [.letter (Char.ofNat 3)] :=
    ⟨_, _, _, hr, .letter _ _ _ _ (.nil _), Or.inl ⟨by simp, by simp⟩⟩
  have hs : Scan false [['-', Char.ofNat 3]] [.mistake] := .letters [Char.ofNat 3] [] [] (by simp) (by decide) .nil
  obtain ⟨recs, hd, _, _⟩ := C53_error_exit_partial false (fun _ => none) c!"j" _ _ hs (fun h => h.noMistake (by simp)) rfl rfl
  have h1 := h false (fun _ => none) c!"j" _ recs _ (by simp [WordsOk]) hd hm
  rw [errors_rows hd hm, reportText_rows (wrongs_plain hm (by unfold Report.Plain; decide))] at h1
  revert h1
  decide

/-- `libjudger.so --max_memory=lots x`: two lines. -/
example (posix : Bool) (junk : Cells) (a : CStr) : ∃ recs, MainDoes posix junk (a :: [c!"--max_memory=lots", c!"x"]) (.errors recs) ∧
    reportText recs = some (c!"libjudger.so: invalid argument \"lots\" to option --max_memory=<n>\n" ++
      c!"libjudger.so: unexpected argument \"x\"\n" ++ c!"Try 'libjudger.so --help' for more information.\n") := by
  have hp : Positional c!"x" := Or.inl (by decide)
  have hcall : Calls c!"max_memory" .maxMemory := calls_full .maxMemory
  have hs : Scan posix [c!"--max_memory=lots", c!"x"] [.opt .maxMemory (some c!"lots"), .mistake] := by
    refine .value c!"max_memory" c!"lots" .maxMemory _ _ hcall (by decide) ?_
    cases posix
    · exact .positional _ _ _ hp rfl .nil
    · exact .positionalEnd _ _ hp rfl
  obtain ⟨recs, hd, _, _⟩ := C53_error_exit_partial posix junk a _ _ hs (fun h => h.noMistake (by simp)) rfl rfl
  refine ⟨recs, hd, ?_⟩
  have hr : Reads posix [c!"--max_memory=lots", c!"x"] [.option .maxMemory (some c!"lots") c!"--max_memory=lots"] [c!"x"] := by
    refine .long [] c!"max_memory=lots" _ _ _ [] _ (by simp) (by decide) (.value c!"max_memory" c!"lots" .maxMemory _ hcall (by decide)) ?_
    cases posix
    · exact .positional _ _ _ _ hp rfl .nil
    · exact .positionalEnd _ _ hp rfl
  have hb : ∀ k, ¬LooseIntText c!"lots" k := by
    intro k hk
    have h1 := scanIntText_loose hk
    rw [show scanIntText c!"lots" = .error .badint from by decide +kernel, inRange] at h1
    split at h1 <;> simp at h1
  have hm : Wrongs posix [c!"--max_memory=lots", c!"x"] [.notInteger .maxMemory c!"lots", .unexpected c!"x"] :=
    ⟨_, _, _, hr, .option _ _ _ _ _ _ _ _ (.notInteger _ (by decide) rfl hb) (.nil _), Or.inl ⟨by simp, by simp⟩⟩
  rw [(C79_report_partial posix junk a _ recs _ (by simp [WordsOk]) hd hm (by simp [Mistake.Control])).1]
  decide

/-- C80: `--help` prints the usage of every option, its meaning, and which are required or repeatable. -/
theorem C80_help : helpText = some help := helpText_eq

/-- C80, every option has its line. -/
theorem C80_every_option (o : Opt) : ∃ T, helpText = some T ∧ o.helpLine <:+: T ∧ o.synopsis <:+: T := by
  refine ⟨_, C80_help, ?_, ?_⟩
  · have : o ∈ helpOrder := by cases o <;> decide
    obtain ⟨l, r, h⟩ := List.append_of_mem this
    rw [help, h]
    refine ⟨c!"Usage: libjudger.so" ++ (l ++ o :: r).flatMap Opt.synopsis ++ c!"\n\n" ++ l.flatMap Opt.helpLine, r.flatMap Opt.helpLine, ?_⟩
    simp
  · have : o ∈ helpOrder := by cases o <;> decide
    obtain ⟨l, r, h⟩ := List.append_of_mem this
    rw [help, h]
    refine ⟨c!"Usage: libjudger.so" ++ l.flatMap Opt.synopsis, r.flatMap Opt.synopsis ++ c!"\n\n" ++ (l ++ o :: r).flatMap Opt.helpLine, ?_⟩
    simp

/-- C80, `--version` prints the version. -/
theorem C80_version : versionText = c!"Version: 2.1.1\n" := by decide +kernel

end Judger
