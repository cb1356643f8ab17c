import Verif.Props.Delivery
import Verif.Props.Killer
import Verif.Props.Logger
import Verif.Spec.Console

/-! # C85: what ends up on the judger's standard output -/

set_option autoImplicit false

namespace Judger

open Judger.Spec Judger.Spec.Cli

/-- A command line without `--output_path` starts a program: `f` is what the program has as standard output. -/
structure OntoStdout (posix : Bool) (ws : List CStr) (f : OpenFile) : Prop where
  intro ::
  started : ∃ (junk : Cells) (a : CStr) (is : List Item) (c : Config) (prior : Result) (e : RunEnv) (effs : List Eff) (ce : ChildEnv)
    (p q : Proc) (path : CStr) (argv envp : List CStr) (j : Nat),
    MainDoes posix junk (a :: ws) (.runs c) ∧ Scan posix ws is ∧ given .outputPath is = [] ∧ run c prior e = .inChild effs ∧ p.uid.e = 0 ∧
    childProcess c ce p = .stop (.execed path argv envp) q ∧ q.fds.get 1 = some j ∧ q.ofds[j]? = some f

/-- Who writes what, and when: in the schedule `σ` the program writes `writes j` between its states `j` and `j + 1`, which takes a running
program, and `main` prints the result (main.c:172-186) at `i`, when `run()` has returned (main.c:170) with `ret`. -/
structure Printing (d : Watchdog) (σ : Schedule d) (writes : Nat → CStr) (i : Nat) (ret : Ret) : Prop where
  first : (σ.state 0).main = .init
  runs : ∀ j, writes j ≠ [] → (σ.state j).child = .running
  printed : (σ.state i).main = .returned ret

/-- What the program writes from `a` on, in `n` steps. -/
def writtenFrom (writes : Nat → CStr) (a n : Nat) : CStr := ((List.range n).map fun j => writes (a + j)).flatten

/-- C85, the full claim: without `--output_path`, whatever standard output is connected to, whatever was there, and however the program, the
watchdog and the judger interleave, at the end (`n` steps after the result) there is what was there, then what the program wrote, then the
result. -/
def C85_full : Prop :=
  ∀ (posix : Bool) (ws : List CStr) (f : OpenFile) (k : Console) (r : Result) (d : Watchdog) (σ : Schedule d) (writes : Nat → CStr) (i n : Nat)
    (ret : Ret), OntoStdout posix ws f → Printing d σ writes i ret →
    k.final f (writtenFrom writes 0 i) (resultText r) (writtenFrom writes i n) =
      k.text ++ writtenFrom writes 0 (i + n) ++ resultText r

/-- Without `--output_path` the program's standard output is `/dev/stdout`, opened anew for writing and emptied. -/
theorem C85_opened (posix : Bool) (ws : List CStr) (f : OpenFile) (h : OntoStdout posix ws f) : f = ⟨c!"/dev/stdout", false, true, true⟩ := by
  obtain ⟨junk, a, is, c, prior, e, effs, ce, p, q, path, argv, envp, j, hm, hs, ho, hr, hroot, hx, hj, hf⟩ := h.started
  obtain ⟨t, ht, j', _, hj', hf'⟩ := (finds posix junk a ws is c prior e effs ce p q path argv envp hm hs hr hroot hx).1.stdout
  rw [hj] at hj'
  cases hj'
  rw [hf] at hf'
  rcases ht with h1 | ⟨_, h2⟩
  · rw [ho] at h1; cases h1
  · rw [h2] at hf'
    exact Option.some.inj hf'

/-- Where the child can be when the calling thread is past its wait. -/
def Gone (s : KState) : Prop :=
  ((s.main = .init ∨ s.main = .started) → s.child = .none) ∧
  (∀ t b, (s.main = .waited t b ∨ s.main = .timed t b ∨ s.main = .returned (.verdict t b) ∨ s.main = .exited (.verdict t b)) →
    (∀ sig, t ≠ .stopped sig) → s.child = .reaped) ∧
  (∀ ret, (s.main = .returned ret ∨ s.main = .exited ret) → (∀ t b, ret ≠ .verdict t b) →
    s.child ≠ .running ∧ ∀ sig, s.child ≠ .stopped sig)

theorem killed_not_running (d : Watchdog) (b : Bool) (c : ChildState) :
    killChild d d.pid b c ≠ .running ∧ ∀ sig, killChild d d.pid b c ≠ .stopped sig := by
  cases c <;> simp [killChild]

theorem killed_same (d : Watchdog) (pid : Nat) (b : Bool) (c : ChildState) :
    (c = .none → killChild d pid b c = .none) ∧ (c = .reaped → killChild d pid b c = .reaped) ∧
    (c ≠ .running → (∀ sig, c ≠ .stopped sig) → killChild d pid b c = c) := by
  cases c <;> simp [killChild]

theorem gone (d : Watchdog) (s : KState) (h : Reach d s) : Gone s := by
  induction h with
  | init now => simp [Gone, KState.init]
  | @step a s s' h hs ih =>
    obtain ⟨h1, h2, h3⟩ := ih
    cases hs
    case createFails h4 h5 => simp [Gone, killed_not_running]
    case waitFails h4 => simp [Gone, killed_not_running]
    case kill pid h4 =>
      have hk := killed_same d pid true s.child
      refine ⟨fun hm => hk.1 (h1 hm), fun t b hm ht => hk.2.1 (h2 t b hm ht), fun ret hm hr => ?_⟩
      have h5 := h3 ret hm hr
      simp only []
      rw [hk.2.2 h5.1 h5.2]
      exact h5
    all_goals refine ⟨?_, ?_, ?_⟩ <;> simp only [] <;> grind

/-- Once the result can be printed a program that was not merely stopped never runs again. -/
theorem never_again (d : Watchdog) (σ : Schedule d) (i : Nat) (ret : Ret) (h : (σ.state i).main = .returned ret)
    (hr : ∀ sig b, ret ≠ .verdict (.stopped sig) b) (j : Nat) : (σ.state (i + j)).child ≠ .running := by
  have reach : ∀ j, Reach d (σ.state j) := by
    intro j
    induction j with
    | zero => exact σ.first
    | succ j ih => exact ih.step (σ.next j)
  have later : Later d (σ.state i) (σ.state (i + j)) := by
    induction j with
    | zero => exact .refl
    | succ j ih => exact ih.step (σ.next (i + j))
  have hm := C43_stays_ended d _ _ ret (.inl h) later
  obtain ⟨-, h2, h3⟩ := gone d _ (reach (i + j))
  cases ret with
  | verdict t b =>
    have := h2 t b (by rcases hm with hm | hm <;> simp [hm]) (fun sig ht => hr sig b (by rw [ht]))
    simp [this]
  | _ => exact (h3 _ hm (by simp)).1

theorem writtenFrom_add (writes : Nat → CStr) (a m n : Nat) :
    writtenFrom writes a (m + n) = writtenFrom writes a m ++ writtenFrom writes (a + m) n := by
  simp [writtenFrom, List.range_add, Nat.add_assoc, Function.comp_def]

/-- C85: the program writes nothing after the result, unless `run()` returned because the program was stopped. -/
theorem C85_nothing_late (d : Watchdog) (σ : Schedule d) (writes : Nat → CStr) (i n : Nat) (ret : Ret) (h : Printing d σ writes i ret)
    (hr : ∀ sig b, ret ≠ .verdict (.stopped sig) b) : writtenFrom writes i n = [] := by
  rw [writtenFrom, List.flatten_eq_nil_iff]
  intro l hl
  obtain ⟨j, -, rfl⟩ := List.mem_map.1 hl
  exact Classical.byContradiction fun hne => never_again d σ i ret h.printed hr j (h.runs _ hne)

/-- C85, the part that holds: standard output is a pipe or a terminal, and `run()` did not return because the program was stopped.  Missing:
regular files (`C85_file`, `C85_appended`) and stopped programs (`C85_stopped_false`). -/
theorem C85_stream_partial (posix : Bool) (ws : List CStr) (f : OpenFile) (k : Console) (r : Result) (d : Watchdog) (σ : Schedule d)
    (writes : Nat → CStr) (i n : Nat) (ret : Ret) (h : OntoStdout posix ws f) (hp : Printing d σ writes i ret) (hk : k.sink = .stream)
    (hr : ∀ sig b, ret ≠ .verdict (.stopped sig) b) :
    f.path = c!"/dev/stdout" ∧ k.final f (writtenFrom writes 0 i) (resultText r) (writtenFrom writes i n) =
      k.text ++ writtenFrom writes 0 (i + n) ++ resultText r := by
  refine ⟨by rw [C85_opened posix ws f h], ?_⟩
  have hz := writtenFrom_add writes 0 i n
  rw [Nat.zero_add] at hz
  rw [hz, C85_nothing_late d σ writes i n ret hp hr]
  simp [Console.final, Console.opened, hk]

theorem overwrite_nil (d : CStr) : overwrite [] 0 d = d := by
  unfold overwrite
  split <;> simp_all

theorem overwrite_none (s : CStr) (n : Nat) : overwrite s n [] = s := rfl

/-- `judger ... > file`: what was in the file is lost, and the result overwrites the beginning of the program's output. -/
theorem C85_file (posix : Bool) (ws : List CStr) (f : OpenFile) (k : Console) (out : CStr) (r : Result) (h : OntoStdout posix ws f)
    (hk : k.sink = .file) (h0 : k.pos = 0) : k.final f out (resultText r) [] = resultText r ++ out.drop (resultText r).length := by
  rw [C85_opened posix ws f h]
  simp only [Console.final, Console.opened, hk, h0, if_true, overwrite_nil, overwrite_none]
  unfold overwrite
  split
  · rename_i h; simp [h]
  · simp

/-- `judger ... >> file`: what was in the file is lost. -/
theorem C85_appended (posix : Bool) (ws : List CStr) (f : OpenFile) (k : Console) (out : CStr) (r : Result) (h : OntoStdout posix ws f)
    (hk : k.sink = .appended) : k.final f out (resultText r) [] = out ++ resultText r := by
  rw [C85_opened posix ws f h]
  simp [Console.final, Console.opened, hk, overwrite_nil, overwrite_none]

/-- All fields of a result fit the types they are printed as. -/
def Result.Fits (r : Result) : Prop :=
  IsInt r.cpuTime ∧ IsInt r.realTime ∧ IsLong r.memory ∧ IsInt r.signal ∧ IsInt r.exitCode ∧ IsInt r.error ∧ IsInt r.result

theorem length_showLong (n : Int) (h : IsLong n) : (showInt n).length ≤ 21 := by
  simp only [IsLong, LONG_MIN, LONG_MAX] at h
  unfold showInt
  split
  · have := length_showNat n.natAbs 19 (by omega)
    simp only [List.length_cons]
    omega
  · have := length_showNat n.natAbs 19 (by omega)
    omega

theorem isLong_of_isInt {n : Int} (h : IsInt n) : IsLong n := by
  simp only [IsInt, INT_MIN, INT_MAX] at h
  simp only [IsLong, LONG_MIN, LONG_MAX]
  omega

theorem length_resultText (r : Result) (h : r.Fits) : (resultText r).length ≤ 300 := by
  obtain ⟨h1, h2, h3, h4, h5, h6, h7⟩ := h
  have h1 := length_showLong _ (isLong_of_isInt h1)
  have h2 := length_showLong _ (isLong_of_isInt h2)
  have h3 := length_showLong _ h3
  have h4 := length_showLong _ (isLong_of_isInt h4)
  have h5 := length_showLong _ (isLong_of_isInt h5)
  have h6 := length_showLong _ (isLong_of_isInt h6)
  have h7 := length_showLong _ (isLong_of_isInt h7)
  simp only [resultText, List.length_append, List.length_cons, List.length_nil]
  omega

/-- `judger ... > file` lets the program choose how the file ends: for every text there is an output after which the file ends with that text,
whatever the result. -/
theorem C85_forged (t : CStr) : ∃ out : CStr, ∀ (posix : Bool) (ws : List CStr) (f : OpenFile) (k : Console) (r : Result),
    OntoStdout posix ws f → k.sink = .file → k.pos = 0 → r.Fits → t <:+ k.final f out (resultText r) [] := by
  refine ⟨List.replicate 300 ' ' ++ t, ?_⟩
  intro posix ws f k r h hk h0 hr
  rw [C85_file posix ws f k _ r h hk h0]
  have hl := length_resultText r hr
  have hd : (List.replicate 300 ' ' ++ t).drop (resultText r).length = List.replicate (300 - (resultText r).length) ' ' ++ t := by
    rw [List.drop_append_of_le_length (by rw [List.length_replicate]; exact hl), List.drop_replicate]
  rw [hd]
  exact ⟨resultText r ++ List.replicate (300 - (resultText r).length) ' ', List.append_assoc _ _ _⟩

/-- `judger --exe_path=... --max_memory=64MB ...` starts a program whose standard output is `/dev/stdout`. -/
theorem onto_sample : OntoStdout false sampleLine ⟨c!"/dev/stdout", false, true, true⟩ := by
  obtain ⟨c, hc⟩ := sample_runs false (fun _ => none) c!"j"
  have hd := C49_defaults _ _ _ _ _ c hc (sample_scan false)
  have hmem := (C47_documented_form _ _ _ _ _ c .maxMemory _ c!"64MB" _ hc (sample_scan false) rfl (by decide) intText_64MB).1
  have hcfg : ConfigOk c := by
    refine ⟨Or.inl (hd.cpu (by decide)), Or.inl (hd.real (by decide)), Or.inr ?_, Or.inl (hd.nproc (by decide)),
      Or.inl (hd.out (by decide)), ?_⟩
    · rw [hmem]; decide
    · rw [hd.stack (by decide)]; decide
  obtain ⟨q, hq⟩ := C17_starts c (sampleChild fun _ => false) sampleProc hcfg (by rw [hd.cpu (by decide)]; decide) rfl rfl
    (by rw [hd.seccomp (by decide)]; simp) (fun _ _ => rfl)
  obtain ⟨t, ht, j, _, hj, hf⟩ := (finds _ _ _ _ _ c (noResult 0) _ _ _ _ _ _ _ _ hc (sample_scan false) (forks c hcfg) rfl hq).1.stdout
  have ho : given .outputPath sampleItems = [] := by decide
  rcases ht with h1 | ⟨_, rfl⟩
  · rw [ho] at h1; cases h1
  · exact ⟨_, _, _, c, _, _, _, _, _, q, _, _, _, j, hc, sample_scan false, ho, forks c hcfg, rfl, hq, hj, hf⟩

/-- The program of `sampleSchedule` writes `hi` before it exits. -/
theorem sample_printing : Printing _ sampleSchedule (fun j => if j = 3 then c!"hi" else []) 7 (.verdict (.exited 3) false) := by
  refine ⟨rfl, fun j hj => ?_, rfl⟩
  by_cases h : j = 3
  · subst h; rfl
  · simp [h] at hj

/-- With standard output a pipe or a terminal on which `$ ` was there before, a program that prints `hi` gives `$ hi` and the result. -/
example : (Console.mk .stream c!"$ " 0).final ⟨c!"/dev/stdout", false, true, true⟩
      (writtenFrom (fun j => if j = 3 then c!"hi" else []) 0 7) (resultText (noResult 0)) (writtenFrom (fun j => if j = 3 then c!"hi" else []) 7 5) =
    c!"$ hi" ++ resultText (noResult 0) :=
  (C85_stream_partial false sampleLine _ _ _ _ _ _ _ 5 _ onto_sample sample_printing rfl (by simp)).2

/-- C85 is false of the code: `judger ... > file` with a program that prints `hi`; the result overwrites it. -/
theorem C85_false : ¬C85_full := by
  intro hfull
  have h1 := hfull false sampleLine _ ⟨.file, [], 0⟩ (noResult 0) _ _ _ 7 0 _ onto_sample sample_printing
  have h2 := congrArg List.head? h1
  revert h2
  decide +kernel

/-- A schedule in which the program stops itself, `run()` returns, and the program is continued. -/
def stoppedSchedule : Schedule ⟨-1, 4242, false⟩ where
  state i :=
    let s0 := KState.init 0
    let s1 : KState := { s0 with main := .started, start := s0.now }
    let s2 : KState := { s1 with main := .forked, child := .running }
    let s3 : KState := { s2 with main := .waiting }
    let s4 : KState := { s3 with child := .stopped 19 }
    let s5 : KState := { s4 with main := .waited (.stopped 19) false }
    let s6 : KState := { s5 with main := .timed (.stopped 19) false, finish := s5.now }
    let s7 : KState := { s6 with main := .returned (.verdict (.stopped 19) false) }
    let s8 : KState := { s7 with child := .running }
    match i with
    | 0 => s0 | 1 => s1 | 2 => s2 | 3 => s3 | 4 => s4 | 5 => s5 | 6 => s6 | 7 => s7 | _ => s8
  act i := match i with
    | 3 | 7 => .child
    | 0 | 1 | 2 | 4 | 5 | 6 => .main
    | _ => .clock
  first := .init 0
  next i := by
    match i with
    | 0 => exact .recordStart _ rfl
    | 1 => exact .forkOk _ rfl
    | 2 => exact .skipTimer _ rfl (by simp [Watchdog.timed, UNLIMITED])
    | 3 => exact .childStops _ 19 rfl
    | 4 => exact .waitStopped _ 19 rfl rfl
    | 5 => exact .recordEnd _ (.stopped 19) false rfl
    | 6 => exact .noCancel _ (.stopped 19) false rfl (by simp [Watchdog.timed, UNLIMITED])
    | 7 => exact .childContinues _ 19 rfl
    | _ + 8 => exact .tick _ 0

/-- Even with a pipe or a terminal: a program that stops itself and is continued writes after the result. -/
theorem C85_stopped_false : ∃ (posix : Bool) (ws : List CStr) (f : OpenFile) (r : Result) (d : Watchdog) (σ : Schedule d) (writes : Nat → CStr)
    (i n : Nat) (ret : Ret), OntoStdout posix ws f ∧ Printing d σ writes i ret ∧
      (Console.mk .stream [] 0).final f (writtenFrom writes 0 i) (resultText r) (writtenFrom writes i n) =
        resultText r ++ c!"{\"result\": 0}" := by
  refine ⟨false, sampleLine, _, noResult 0, _, stoppedSchedule, fun j => if j = 8 then c!"{\"result\": 0}" else [], 7, 2, _, onto_sample,
    ⟨rfl, fun j hj => ?_, rfl⟩, ?_⟩
  · by_cases h : j = 8
    · subst h; rfl
    · simp [h] at hj
  · simp [Console.final, Console.opened, writtenFrom, List.range_succ]

end Judger
