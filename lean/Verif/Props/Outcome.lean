import Verif.Props.Cli

/-! # C53 and C57, settled: which command lines end in which way -/

set_option autoImplicit false

namespace Judger

open Spec Spec.Cli

/-- The ways a command line that is finished with can end. -/
theorem outcome_cases (posix : Bool) (junk : Cells) (a : CStr) (ws : List CStr) (out : MainOut) (h : MainDoes posix junk (a :: ws) out) :
    ∃ is, Scan posix ws is ∧
      ((0 < times .help is ∧ out = .help) ∨ (times .help is = 0 ∧ 0 < times .version is ∧ out = .version) ∨
        (times .help is = 0 ∧ times .version is = 0 ∧ ((¬Fine is ∧ ∃ recs, out = .errors recs) ∨ (Fine is ∧ ∃ c, out = .runs c)))) := by
  obtain ⟨is, hs⟩ := (C55_terminates_iff posix junk a ws).1 ⟨out, h⟩
  refine ⟨is, hs, ?_⟩
  obtain ⟨h1, h2⟩ := C57_help_first_partial posix junk a ws is hs
  by_cases hh : times .help is = 0
  · by_cases hv : times .version is = 0
    · refine .inr (.inr ⟨hh, hv, ?_⟩)
      by_cases hf : Fine is
      · obtain ⟨c, hc⟩ := main_runs (junk := junk) (a := a) hs hf hh hv
        exact .inr ⟨hf, c, hc.unique h⟩
      · obtain ⟨recs, hr, _⟩ := C53_error_exit_partial posix junk a ws is hs hf hh hv
        exact .inl ⟨hf, recs, hr.unique h⟩
    · exact .inr (.inl ⟨hh, by omega, (h2 hh (by omega) out).1 h⟩)
  · exact .inl ⟨by omega, (h1 (by omega) out).1 h⟩

/-- C53, settled: the errors are reported exactly on the command lines that are finished with, ask for neither help nor version, and have a mistake; a program is
run exactly on those without one. -/
theorem C53_exact (posix : Bool) (junk : Cells) (a : CStr) (ws : List CStr) :
    ((∃ recs, MainDoes posix junk (a :: ws) (.errors recs)) ↔ ∃ is, Scan posix ws is ∧ times .help is = 0 ∧ times .version is = 0 ∧ ¬Fine is) ∧
    ((∃ c, MainDoes posix junk (a :: ws) (.runs c)) ↔ ∃ is, Scan posix ws is ∧ times .help is = 0 ∧ times .version is = 0 ∧ Fine is) := by
  refine ⟨⟨?_, ?_⟩, ?_, ?_⟩
  · rintro ⟨recs, h⟩
    obtain ⟨is, hs, ⟨_, h⟩ | ⟨_, _, h⟩ | ⟨hh, hv, ⟨hf, _⟩ | ⟨_, _, h⟩⟩⟩ := outcome_cases posix junk a ws _ h
    · cases h
    · cases h
    · exact ⟨is, hs, hh, hv, hf⟩
    · cases h
  · rintro ⟨is, hs, hh, hv, hf⟩
    obtain ⟨recs, h, _⟩ := C53_error_exit_partial posix junk a ws is hs hf hh hv
    exact ⟨recs, h⟩
  · rintro ⟨c, h⟩
    obtain ⟨is, hs, ⟨_, h⟩ | ⟨_, _, h⟩ | ⟨hh, hv, ⟨_, _, h⟩ | ⟨hf, _⟩⟩⟩ := outcome_cases posix junk a ws _ h
    · cases h
    · cases h
    · cases h
    · exact ⟨is, hs, hh, hv, hf⟩
  · rintro ⟨is, hs, hh, hv, hf⟩
    exact main_runs hs hf hh hv

/-- C57, settled: help is shown exactly on the command lines that are finished with and ask for it; the version exactly on those that ask for it and not for help. -/
theorem C57_exact (posix : Bool) (junk : Cells) (a : CStr) (ws : List CStr) :
    (MainDoes posix junk (a :: ws) .help ↔ ∃ is, Scan posix ws is ∧ 0 < times .help is) ∧
    (MainDoes posix junk (a :: ws) .version ↔ ∃ is, Scan posix ws is ∧ times .help is = 0 ∧ 0 < times .version is) := by
  refine ⟨⟨fun h => ?_, fun ⟨is, hs, hh⟩ => ((C57_help_first_partial posix junk a ws is hs).1 hh _).2 rfl⟩,
    fun h => ?_, fun ⟨is, hs, hh, hv⟩ => ((C57_help_first_partial posix junk a ws is hs).2 hh hv _).2 rfl⟩
  · obtain ⟨is, hs, ⟨h, _⟩ | ⟨_, _, h⟩ | ⟨_, _, ⟨_, _, h⟩ | ⟨_, _, h⟩⟩⟩ := outcome_cases posix junk a ws _ h
    · exact ⟨is, hs, h⟩
    · cases h
    · cases h
    · cases h
  · obtain ⟨is, hs, ⟨_, h⟩ | ⟨hh, hv, _⟩ | ⟨_, _, ⟨_, _, h⟩ | ⟨_, _, h⟩⟩⟩ := outcome_cases posix junk a ws _ h
    · cases h
    · exact ⟨is, hs, hh, hv⟩
    · cases h
    · cases h

/-- All four ways occur: the sample line runs; no words are a mistake; `--help`; `--version`. -/
example (junk : Cells) : (∃ c, MainDoes false junk (c!"j" :: sampleLine) (.runs c)) ∧ (∃ recs, MainDoes false junk (c!"j" :: []) (.errors recs)) ∧
    MainDoes false junk [c!"j", c!"--help"] .help ∧ MainDoes false junk [c!"j", c!"--version"] .version :=
  ⟨sample_runs false junk c!"j", (C53_exact false junk c!"j" []).1.2 ⟨[], .nil, rfl, rfl, fun h => absurd h.exe (by decide)⟩,
    ((C57_exact false junk c!"j" _).1).2 ⟨_, .flag c!"help" .help _ _ (calls_full .help) (by decide) .nil, by decide⟩,
    ((C57_exact false junk c!"j" _).2).2 ⟨_, .flag c!"version" .version _ _ (calls_full .version) (by decide) .nil, by decide, by decide⟩⟩

end Judger
