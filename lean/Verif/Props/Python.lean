import Verif.Lemmas.Options
import Verif.Lemmas.Utf8
import Verif.Spec.Python

/-!
# C59–C61: the Python binding
-/

set_option autoImplicit false

namespace Judger

open Judger.Spec Judger.Spec.Cli Judger.Spec.Python Judger.Py

/-! ## The words of a call -/

/-- The words a request is turned into. -/
def reqEntries (q : Request) : List Entry :=
  (q.args.map fun s => ⟨c!"args", .args, s⟩) ++ ((q.env.map fun s => ⟨c!"env", .env, s⟩) ++
  (intEntry .maxCpuTime q.maxCpuTime ++ (intEntry .maxRealTime q.maxRealTime ++ (intEntry .maxMemory q.maxMemory ++
  (intEntry .maxStack q.maxStack ++ (intEntry .maxOutputSize q.maxOutputSize ++ (intEntry .maxProcessNumber q.maxProcessNumber ++
  (intEntry .uid q.uid ++ (intEntry .gid q.gid ++ (intEntry .memoryLimitCheckOnly q.memoryLimitCheckOnly ++
  ([⟨c!"exe_path", .exePath, q.exePath⟩] ++ ([⟨c!"input_path", .inputPath, q.inputPath⟩] ++
  ([⟨c!"output_path", .outputPath, q.outputPath⟩] ++ ([⟨c!"error_path", .errorPath, q.errorPath⟩] ++
  ([⟨c!"log_path", .logPath, q.logPath⟩] ++
  (q.seccompRuleName.elim [] fun s => if s ≠ [] then [⟨c!"seccomp_rule", .seccompRuleName, s⟩] else []))))))))))))))))

theorem itemWords_strs (v : Var) (ss : List CStr) : itemWords v (ss.map .str) = .ok (ss.map (word v.name)) := by
  induction ss with
  | nil => rfl
  | cons s ss ih => simp only [List.map, itemWords, itemWord, ih]

theorem intWords_int (v : Var) (o : Opt) (n : Int) (h : v.name = o.name) :
    intWords v (.int n) = .ok ((intEntry o n).map Entry.word) := by
  simp only [intWords, intEntry]
  split
  · simp [word, Entry.word, h]
  · rfl

theorem procArgs_request (q : Request) : procArgs q.call = .ok ((reqEntries q).map Entry.word) := by
  have hl : forVars listWords q.call strListVars = .ok (q.args.map (word c!"args") ++ q.env.map (word c!"env")) := by
    simp only [strListVars, forVars, Request.call, listWords, itemWords_strs, List.append_nil]
    rfl
  have hi : ∀ v o n, v.name = o.name → intWords v (.int n) = .ok ((intEntry o n).map Entry.word) := intWords_int
  simp only [procArgs, hl, intVars, strVars, forVars, Request.call, strWords,
    hi .maxCpuTime .maxCpuTime _ rfl, hi .maxRealTime .maxRealTime _ rfl, hi .maxMemory .maxMemory _ rfl,
    hi .maxStack .maxStack _ rfl, hi .maxOutputSize .maxOutputSize _ rfl, hi .maxProcessNumber .maxProcessNumber _ rfl,
    hi .uid .uid _ rfl, hi .gid .gid _ rfl, hi .memoryLimitCheckOnly .memoryLimitCheckOnly _ rfl]
  have hseq : seccompWords (q.seccompRuleName.elim .none .str) =
      .ok ((q.seccompRuleName.elim [] fun s => if s ≠ [] then [⟨c!"seccomp_rule", .seccompRuleName, s⟩] else []).map Entry.word) := by
    cases q.seccompRuleName with
    | none => rfl
    | some s =>
      simp only [Option.elim, seccompWords]
      split <;> rfl
  have ha : ∀ (nm : CStr) (o : Opt) (ss : List CStr), (ss.map fun s => (⟨nm, o, s⟩ : Entry)).map Entry.word = ss.map (word nm) := by
    intro nm o ss
    rw [List.map_map]; rfl
  rw [hseq]
  simp only [reqEntries, List.map_append, ha, List.append_assoc, List.append_nil, List.map_cons, List.map_nil]
  rfl

theorem mem_intEntry {e : Entry} {o : Opt} {n : Int} (h : e ∈ intEntry o n) : e = ⟨o.name, o, showInt n⟩ := by
  unfold intEntry at h
  split at h
  · simpa using h
  · simp at h

/-- Every word of a request is one of these. -/
theorem mem_reqEntries {q : Request} {e : Entry} (h : e ∈ reqEntries q) :
    (∃ s ∈ q.args, e = ⟨c!"args", .args, s⟩) ∨ (∃ s ∈ q.env, e = ⟨c!"env", .env, s⟩) ∨
    (∃ o n, o.takes = .int ∧ e = ⟨o.name, o, showInt n⟩ ∧ n ∈ [q.maxCpuTime, q.maxRealTime, q.maxMemory, q.maxStack, q.maxOutputSize,
      q.maxProcessNumber, q.uid, q.gid, q.memoryLimitCheckOnly]) ∨
    (∃ o s, o.takes = .text ∧ e = ⟨o.name, o, s⟩ ∧ s ∈ [q.exePath, q.inputPath, q.outputPath, q.errorPath, q.logPath]) ∨
    (∃ s, q.seccompRuleName = some s ∧ s ≠ [] ∧ e = ⟨c!"seccomp_rule", .seccompRuleName, s⟩) := by
  simp only [reqEntries, List.mem_append, List.mem_map, List.mem_singleton] at h
  have hint : ∀ o n, o.takes = .int → n ∈ [q.maxCpuTime, q.maxRealTime, q.maxMemory, q.maxStack, q.maxOutputSize,
      q.maxProcessNumber, q.uid, q.gid, q.memoryLimitCheckOnly] → e ∈ intEntry o n →
      ∃ o n, o.takes = .int ∧ e = ⟨o.name, o, showInt n⟩ ∧ n ∈ [q.maxCpuTime, q.maxRealTime, q.maxMemory, q.maxStack, q.maxOutputSize,
      q.maxProcessNumber, q.uid, q.gid, q.memoryLimitCheckOnly] := fun o n h1 h2 h3 => ⟨o, n, h1, mem_intEntry h3, h2⟩
  rcases h with ⟨s, h1, h2⟩ | ⟨s, h1, h2⟩ | h | h | h | h | h | h | h | h | h | h | h | h | h | h | h
  · exact Or.inl ⟨s, h1, h2.symm⟩
  · exact Or.inr (Or.inl ⟨s, h1, h2.symm⟩)
  · exact Or.inr (Or.inr (Or.inl (hint _ _ rfl (by simp) h)))
  · exact Or.inr (Or.inr (Or.inl (hint _ _ rfl (by simp) h)))
  · exact Or.inr (Or.inr (Or.inl (hint _ _ rfl (by simp) h)))
  · exact Or.inr (Or.inr (Or.inl (hint _ _ rfl (by simp) h)))
  · exact Or.inr (Or.inr (Or.inl (hint _ _ rfl (by simp) h)))
  · exact Or.inr (Or.inr (Or.inl (hint _ _ rfl (by simp) h)))
  · exact Or.inr (Or.inr (Or.inl (hint _ _ rfl (by simp) h)))
  · exact Or.inr (Or.inr (Or.inl (hint _ _ rfl (by simp) h)))
  · exact Or.inr (Or.inr (Or.inl (hint _ _ rfl (by simp) h)))
  · exact Or.inr (Or.inr (Or.inr (Or.inl ⟨.exePath, q.exePath, rfl, h, by simp⟩)))
  · exact Or.inr (Or.inr (Or.inr (Or.inl ⟨.inputPath, q.inputPath, rfl, h, by simp⟩)))
  · exact Or.inr (Or.inr (Or.inr (Or.inl ⟨.outputPath, q.outputPath, rfl, h, by simp⟩)))
  · exact Or.inr (Or.inr (Or.inr (Or.inl ⟨.errorPath, q.errorPath, rfl, h, by simp⟩)))
  · exact Or.inr (Or.inr (Or.inr (Or.inl ⟨.logPath, q.logPath, rfl, h, by simp⟩)))
  · right; right; right; right
    cases hq : q.seccompRuleName with
    | none => rw [hq] at h; simp at h
    | some s =>
      rw [hq] at h
      simp only [Option.elim] at h
      split at h
      · rename_i hs
        exact ⟨s, rfl, hs, by simpa using h⟩
      · simp at h

theorem calls_seccomp_rule : Calls c!"seccomp_rule" .seccompRuleName := calls_of_all (by decide) (by decide)

theorem reqEntries_good (q : Request) : ∀ e ∈ reqEntries q, e.Good := by
  intro e h
  rcases mem_reqEntries h with ⟨s, _, rfl⟩ | ⟨s, _, rfl⟩ | ⟨o, n, ho, rfl, _⟩ | ⟨o, n, ho, rfl, _⟩ | ⟨s, _, _, rfl⟩
  · exact ⟨calls_full .args, nofun⟩
  · exact ⟨calls_full .env, nofun⟩
  · exact ⟨calls_full o, by rw [ho]; decide⟩
  · exact ⟨calls_full o, by rw [ho]; decide⟩
  · exact ⟨calls_seccomp_rule, nofun⟩

theorem vals_seccomp (o : Opt) (s : Option CStr) :
    entryVals o (s.elim [] fun s => if s ≠ [] then [⟨c!"seccomp_rule", .seccompRuleName, s⟩] else []) =
      if o = .seccompRuleName then (if s = some [] then [] else s.toList) else [] := by
  cases s with
  | none => simp [entryVals, given]
  | some s =>
    by_cases hs : s = []
    · simp [hs, entryVals, given]
    · simp only [Option.elim, hs, ne_eq, not_false_iff, if_true, entryVals_one, Option.some.injEq, if_false, Option.toList]
      by_cases ho : o = .seccompRuleName
      · simp [ho]
      · simp [ho, Ne.symm ho]

/-- What the words give for an option. -/
theorem vals_reqEntries (q : Request) (o : Opt) : entryVals o (reqEntries q) =
    match o with
    | .args => q.args
    | .env => q.env
    | .maxCpuTime => if q.maxCpuTime ≠ -1 then [showInt q.maxCpuTime] else []
    | .maxRealTime => if q.maxRealTime ≠ -1 then [showInt q.maxRealTime] else []
    | .maxMemory => if q.maxMemory ≠ -1 then [showInt q.maxMemory] else []
    | .maxStack => if q.maxStack ≠ -1 then [showInt q.maxStack] else []
    | .maxOutputSize => if q.maxOutputSize ≠ -1 then [showInt q.maxOutputSize] else []
    | .maxProcessNumber => if q.maxProcessNumber ≠ -1 then [showInt q.maxProcessNumber] else []
    | .uid => if q.uid ≠ -1 then [showInt q.uid] else []
    | .gid => if q.gid ≠ -1 then [showInt q.gid] else []
    | .memoryLimitCheckOnly => if q.memoryLimitCheckOnly ≠ -1 then [showInt q.memoryLimitCheckOnly] else []
    | .exePath => [q.exePath]
    | .inputPath => [q.inputPath]
    | .outputPath => [q.outputPath]
    | .errorPath => [q.errorPath]
    | .logPath => [q.logPath]
    | .seccompRuleName => if q.seccompRuleName = some [] then [] else q.seccompRuleName.toList
    | .help | .version => [] := by
  simp only [reqEntries, entryVals_append, entryVals_list, entryVals_intEntry, entryVals_one, vals_seccomp]
  cases o <;> simp

theorem reqEntries_fine {q : Request} (hq : q.Ok) : Fine ((reqEntries q).map Entry.item) := by
  apply fine_entries
  · intro e h
    rcases mem_reqEntries h with ⟨s, hs, rfl⟩ | ⟨s, hs, rfl⟩ | ⟨o, n, ho, rfl, _⟩ | ⟨o, s, ho, rfl, hs⟩ | ⟨s, _, hs, rfl⟩
    · exact hq.filled s (by simp [hs])
    · exact hq.filled s (by simp [hs])
    · exact showInt_ne_nil n
    · exact hq.filled s (by simp only [List.mem_append]; exact Or.inl (Or.inl hs))
    · exact hs
  · intro e h ht
    rcases mem_reqEntries h with ⟨s, hs, rfl⟩ | ⟨s, hs, rfl⟩ | ⟨o, n, ho, rfl, hn⟩ | ⟨o, s, ho, rfl, hs⟩ | ⟨s, _, hs, rfl⟩
    · simp [Opt.takes] at ht
    · simp [Opt.takes] at ht
    · exact ⟨n, Or.inl (intText_showInt n), hq.ints n hn⟩
    · simp only at ht; rw [ho] at ht; cases ht
    · simp [Opt.takes] at ht
  · intro o
    rw [vals_reqEntries]
    cases o <;> simp only [Opt.atMost]
    case args => exact hq.args
    case env => exact hq.env
    case seccompRuleName =>
      split
      · simp
      · cases q.seccompRuleName <;> simp
    all_goals first | (split <;> simp) | simp
  · rw [vals_reqEntries]; simp

theorem reqEntries_means {q : Request} (c : Config) (hc : c = { q.wanted with args := c.args, env := c.env }) :
    MeansScalars ((reqEntries q).map Entry.item) c := by
  have hv := vals_reqEntries q
  unfold entryVals at hv
  have hi : ∀ (o : Opt) (n d n' : Int), (given o ((reqEntries q).map Entry.item) = if n ≠ -1 then [showInt n] else []) → d = n' →
      IntIs o ((reqEntries q).map Entry.item) d (if n = -1 then n' else n) := fun o n d n' h1 h2 => intIs_of h1 h2
  have hi1 : ∀ (o : Opt) (n : Int), (given o ((reqEntries q).map Entry.item) = if n ≠ -1 then [showInt n] else []) →
      IntIs o ((reqEntries q).map Entry.item) UNLIMITED n := by
    intro o n h1
    have := hi o n UNLIMITED (-1) h1 rfl
    by_cases hn : n = -1
    · rw [if_pos hn] at this; rw [hn]; exact this
    · rw [if_neg hn] at this; exact this
  rw [hc]
  exact
    { cpu := hi1 _ _ (hv .maxCpuTime)
      real := hi1 _ _ (hv .maxRealTime)
      mem := hi1 _ _ (hv .maxMemory)
      check := ⟨_, hi _ _ _ 0 (hv .memoryLimitCheckOnly) rfl, rfl⟩
      stack := hi _ _ _ 16777216 (hv .maxStack) rfl
      nproc := hi1 _ _ (hv .maxProcessNumber)
      out := hi1 _ _ (hv .maxOutputSize)
      exe := hv .exePath
      input := ⟨_, Or.inl (hv .inputPath), rfl⟩
      output := ⟨_, Or.inl (hv .outputPath), rfl⟩
      error := ⟨_, Or.inl (hv .errorPath), rfl⟩
      log := Or.inl (hv .logPath)
      seccomp := by
        have h := hv .seccompRuleName
        simp only [Request.wanted]
        cases hs : q.seccompRuleName with
        | none => rw [hs] at h; right; exact ⟨by simpa using h, by simp⟩
        | some s =>
          rw [hs] at h
          by_cases he : s = []
          · subst he; right; exact ⟨by simpa using h, by simp⟩
          · left; exact ⟨s, by simpa [he] using h, by simp [he]⟩
      uid := ⟨_, hi _ _ _ 65534 (hv .uid) rfl, rfl⟩
      gid := ⟨_, hi _ _ _ 65534 (hv .gid) rfl, rfl⟩ }

theorem showInt_noNul (n : Int) : '\x00' ∉ showInt n := by
  intro h
  have : ∀ k : Nat, '\x00' ∉ showNat k := fun k hk => by
    have := showNat_digits k _ hk
    revert this; decide
  unfold showInt at h
  split at h
  · simp only [List.mem_cons] at h
    rcases h with h | h
    · revert h; decide
    · exact this _ h
  · exact this _ h

theorem name_noNul (o : Opt) : '\x00' ∉ o.name := by cases o <;> decide

theorem word_noNul {e : Entry} (hn : '\x00' ∉ e.name) (hv : '\x00' ∉ e.val) : '\x00' ∉ e.word := by
  unfold Entry.word
  simp only [List.mem_cons, List.mem_append, not_or]
  exact ⟨by decide, by decide, hn, by decide, hv⟩

theorem start_request {q : Request} (hq : q.Ok) : start q.call = .popen (judgerPath :: (reqEntries q).map Entry.word) := by
  unfold start
  rw [procArgs_request]
  simp only
  rw [if_neg]
  rw [Bool.not_eq_true, List.any_eq_false]
  intro w hw
  obtain ⟨e, he, rfl⟩ := List.mem_map.mp hw
  rw [List.contains_iff_mem]
  rcases mem_reqEntries he with ⟨s, hs, rfl⟩ | ⟨s, hs, rfl⟩ | ⟨o, n, ho, rfl, _⟩ | ⟨o, s, ho, rfl, hs⟩ | ⟨s, hs, _, rfl⟩
  · exact word_noNul (by simp) (hq.noNul s (by simp [hs]))
  · exact word_noNul (by simp) (hq.noNul s (by simp [hs]))
  · exact word_noNul (name_noNul o) (showInt_noNul n)
  · exact word_noNul (name_noNul o) (hq.noNul s (by simp only [List.mem_append]; exact Or.inl (Or.inl (Or.inl hs))))
  · exact word_noNul (by simp) (hq.noNul s (by simp [hs]))

/-! ## C59 -/

/-- C59, the full claim: an acceptable request starts the judger, which runs exactly the configuration described. -/
def C59_full : Prop :=
  ∀ (q : Request), q.Ok → ∃ argv, start q.call = .popen argv ∧
    ∀ (posix : Bool) (junk : Cells), MainDoes posix junk argv (.runs q.wanted)

/-- What the judger does with every acceptable request. -/
theorem C59_exact (q : Request) (hq : q.Ok) : ∃ argv, start q.call = .popen argv ∧ ∀ (posix : Bool) (junk : Cells),
    MainDoes posix junk argv (.runs { q.wanted with args := q.exePath :: (q.args ++ if q.args.length = 255 then q.env else []) }) := by
  refine ⟨_, start_request hq, fun posix junk => ?_⟩
  have hv := vals_reqEntries q
  unfold entryVals at hv
  refine runs_of_means (scan_entries posix _ (reqEntries_good q)) (reqEntries_fine hq) (entries_noFlag (reqEntries_good q) rfl)
    (entries_noFlag (reqEntries_good q) rfl) (reqEntries_means _ rfl) ?_ ?_
  · rw [hv .args, hv .env]; rfl
  · rw [hv .env]; rfl

/-- C59, the part that holds: up to 254 arguments, or 255 without environment.  Missing: 255 arguments and an environment
(`C59_false`). -/
theorem C59_configuration_partial (q : Request) (hq : q.Ok) (hn : q.args.length ≠ 255 ∨ q.env = []) :
    ∃ argv, start q.call = .popen argv ∧ ∀ (posix : Bool) (junk : Cells), MainDoes posix junk argv (.runs q.wanted) := by
  obtain ⟨argv, h1, h2⟩ := C59_exact q hq
  refine ⟨argv, h1, fun posix junk => ?_⟩
  have := h2 posix junk
  have hx : (if q.args.length = 255 then q.env else []) = [] := by
    rcases hn with hn | hn
    · rw [if_neg hn]
    · rw [hn]; simp
  rw [hx, List.append_nil] at this
  exact this

/-- A request with the given lists. -/
def sampleRequest (args env : List CStr) : Request where
  maxCpuTime := 1000
  maxRealTime := -1
  maxMemory := 67108864
  maxStack := -1
  maxOutputSize := 10000
  maxProcessNumber := -1
  exePath := c!"/bin/echo"
  inputPath := c!"a.in"
  outputPath := c!"a.out"
  errorPath := c!"a.err"
  args := args
  env := env
  logPath := c!"j.log"
  seccompRuleName := some c!"c_cpp"
  uid := 0
  gid := -2
  memoryLimitCheckOnly := 1

theorem sampleRequest_ok (args env : List CStr) (ha : args.length ≤ 255) (he : env.length ≤ 255) (hs : ∀ s ∈ args ++ env, s ≠ [] ∧ '\x00' ∉ s) :
    (sampleRequest args env).Ok where
  ints := by intro n; simp only [sampleRequest]; revert n; decide
  filled := by
    intro s h
    simp only [sampleRequest, List.append_assoc, List.mem_append] at h
    rcases h with h | h
    · revert h; revert s; decide
    · exact (hs s (by simpa using h)).1
  noNul := by
    intro s h
    simp only [sampleRequest, List.append_assoc, List.mem_append] at h
    rcases h with h | h | h | h
    · revert h; revert s; decide
    · exact (hs s (by simp [h])).2
    · exact (hs s (by simp [h])).2
    · revert h; revert s; decide
  args := ha
  env := he

example : (sampleRequest [c!"hello world", c!"--version"] [c!"PATH=/bin"]).Ok :=
  sampleRequest_ok _ _ (by decide) (by decide) (by decide)

example : (sampleRequest [c!"hello world", c!"--version"] []).wanted =
    ⟨1000, -1, 67108864, 16777216, -1, 10000, 1, c!"/bin/echo", some c!"a.in", some c!"a.out", some c!"a.err",
      [c!"/bin/echo", c!"hello world", c!"--version"], [], c!"j.log", some c!"c_cpp", 0, 4294967294⟩ := by decide

/-- C59 is false of the code: with 255 arguments the environment is appended to the arguments (C50). -/
theorem C59_false : ¬C59_full := by
  intro h
  have hok : (sampleRequest (List.replicate 255 c!"y") [c!"z"]).Ok := by
    refine sampleRequest_ok _ _ (Nat.le_of_eq List.length_replicate) (by decide) ?_
    intro s hs
    simp only [List.mem_append, List.mem_replicate, List.mem_singleton] at hs
    rcases hs with ⟨_, rfl⟩ | rfl <;> decide
  obtain ⟨argv, h1, h2⟩ := h _ hok
  obtain ⟨argv', h1', h2'⟩ := C59_exact _ hok
  rw [h1] at h1'
  simp only [Started.popen.injEq] at h1'
  subst h1'
  have := (h2 false fun _ => none).unique (h2' false fun _ => none)
  simp only [MainOut.runs.injEq] at this
  have := congrArg Config.args this
  simp only [Request.wanted, sampleRequest, List.length_replicate, if_true] at this
  exact append_ne _ _ (List.cons.inj this).2

/-! ## C60 -/

theorem itemWords_ok {v : Var} {xs : List PyVal} {ws : List CStr} (h : itemWords v xs = .ok ws) :
    ∃ ss : List CStr, xs = ss.map .str := by
  induction xs generalizing ws with
  | nil => exact ⟨[], rfl⟩
  | cons x xs ih =>
    cases x with
    | str s =>
      simp only [itemWords, itemWord] at h
      cases hx : itemWords v xs with
      | error m => rw [hx] at h; simp at h
      | ok ws' =>
        obtain ⟨ss, hss⟩ := ih hx
        exact ⟨s :: ss, by simp [hss]⟩
    | _ => simp [itemWords, itemWord] at h

theorem forVars_ok {one : Var → PyVal → Except CStr (List CStr)} {call : Var → PyVal} {vs : List Var} {ws : List CStr}
    (h : forVars one call vs = .ok ws) : ∀ v ∈ vs, ∃ w, one v (call v) = .ok w := by
  induction vs generalizing ws with
  | nil => simp
  | cons v vs ih =>
    simp only [forVars] at h
    cases h1 : one v (call v) with
    | error m => rw [h1] at h; simp at h
    | ok w =>
      rw [h1] at h
      simp only at h
      cases h2 : forVars one call vs with
      | error m => rw [h2] at h; simp at h
      | ok w' =>
        intro v' hv'
        simp only [List.mem_cons] at hv'
        rcases hv' with rfl | hv'
        · exact ⟨w, h1⟩
        · exact ih h2 v' hv'

/-- C60: a parameter of the wrong type raises `ValueError` and starts no process. -/
theorem C60_wrong_type (call : Var → PyVal) (v : Var) (h : WrongType v (call v)) : ∃ msg, start call = .valueError msg := by
  cases hp : procArgs call with
  | error m => exact ⟨m, by simp [start, hp]⟩
  | ok ws =>
    exfalso
    simp only [procArgs] at hp
    cases h1 : forVars listWords call strListVars with
    | error m => rw [h1] at hp; simp at hp
    | ok w1 =>
    rw [h1] at hp; simp only at hp
    cases h2 : forVars intWords call intVars with
    | error m => rw [h2] at hp; simp at hp
    | ok w2 =>
    rw [h2] at hp; simp only at hp
    cases h3 : forVars strWords call strVars with
    | error m => rw [h3] at hp; simp at hp
    | ok w3 =>
    rw [h3] at hp; simp only at hp
    cases h4 : seccompWords (call .seccompRuleName) with
    | error m => rw [h4] at hp; simp at hp
    | ok w4 =>
    have hl : ∀ v ∈ strListVars, ∃ ss : List CStr, call v = .list (ss.map .str) := by
      intro v hv
      obtain ⟨w, hw⟩ := forVars_ok h1 v hv
      cases hc : call v with
      | list xs =>
        rw [hc] at hw
        obtain ⟨ss, hss⟩ := itemWords_ok hw
        exact ⟨ss, by rw [hss]⟩
      | _ => rw [hc] at hw; simp [listWords] at hw
    have hi : ∀ v ∈ intVars, (∃ n, call v = .int n) ∨ ∃ b, call v = .bool b := by
      intro v hv
      obtain ⟨w, hw⟩ := forVars_ok h2 v hv
      cases hc : call v with
      | int n => exact Or.inl ⟨n, rfl⟩
      | bool b => exact Or.inr ⟨b, rfl⟩
      | _ => rw [hc] at hw; simp [intWords] at hw
    have hs : ∀ v ∈ strVars, ∃ s, call v = .str s := by
      intro v hv
      obtain ⟨w, hw⟩ := forVars_ok h3 v hv
      cases hc : call v with
      | str s => exact ⟨s, rfl⟩
      | _ => rw [hc] at hw; simp [strWords] at hw
    have hr : (∃ s, call .seccompRuleName = .str s) ∨ call .seccompRuleName = .none := by
      cases hc : call .seccompRuleName with
      | str s => exact Or.inl ⟨s, rfl⟩
      | none => exact Or.inr rfl
      | _ => rw [hc] at h4; simp [seccompWords] at h4
    cases v <;> simp only [WrongType] at h <;>
      first
        | exact h (hl _ (by decide))
        | exact h (hi _ (by decide))
        | exact h (hs _ (by decide))
        | exact h hr

/-- C60, the other direction: a call without such a parameter, and without a NUL, does start the judger; so exactly the ill-typed
calls are refused. -/
theorem C60_only_wrong_type (call : Var → PyVal) (h : ∀ v, ¬WrongType v (call v)) :
    (∃ argv, start call = .popen argv) ∨ start call = .valueError c!"embedded null byte" := by
  have hl : ∀ v ∈ strListVars, ∃ ws, listWords v (call v) = .ok ws := by
    intro v hv
    simp only [strListVars, List.mem_cons, List.not_mem_nil, or_false] at hv
    have := h v
    rcases hv with rfl | rfl <;> simp only [WrongType, Classical.not_not] at this <;> obtain ⟨ss, hss⟩ := this <;>
      exact ⟨_, by rw [hss]; exact itemWords_strs _ ss⟩
  have hi : ∀ v ∈ intVars, ∃ ws, intWords v (call v) = .ok ws := by
    intro v hv
    have := h v
    simp only [intVars, List.mem_cons, List.not_mem_nil, or_false] at hv
    rcases hv with rfl | rfl | rfl | rfl | rfl | rfl | rfl | rfl | rfl <;> simp only [WrongType, Classical.not_not] at this <;>
      rcases this with ⟨n, hn⟩ | ⟨n, hn⟩ <;> exact ⟨_, by rw [hn]; rfl⟩
  have hs : ∀ v ∈ strVars, ∃ ws, strWords v (call v) = .ok ws := by
    intro v hv
    have := h v
    simp only [strVars, List.mem_cons, List.not_mem_nil, or_false] at hv
    rcases hv with rfl | rfl | rfl | rfl | rfl <;> simp only [WrongType, Classical.not_not] at this <;>
      obtain ⟨s, hs⟩ := this <;> exact ⟨_, by rw [hs]; rfl⟩
  have hr : ∃ ws, seccompWords (call .seccompRuleName) = .ok ws := by
    have := h .seccompRuleName
    simp only [WrongType, Classical.not_not] at this
    rcases this with ⟨s, hs⟩ | hs <;> exact ⟨_, by rw [hs]; rfl⟩
  have all : ∀ (one : Var → PyVal → Except CStr (List CStr)) (vs : List Var), (∀ v ∈ vs, ∃ ws, one v (call v) = .ok ws) →
      ∃ ws, forVars one call vs = .ok ws := by
    intro one vs
    induction vs with
    | nil => intro _; exact ⟨[], rfl⟩
    | cons v vs ih =>
      intro hv
      obtain ⟨w, hw⟩ := hv v (by simp)
      obtain ⟨w', hw'⟩ := ih fun v' h' => hv v' (by simp [h'])
      exact ⟨w ++ w', by simp only [forVars, hw, hw']⟩
  obtain ⟨w1, h1⟩ := all _ _ hl
  obtain ⟨w2, h2⟩ := all _ _ hi
  obtain ⟨w3, h3⟩ := all _ _ hs
  obtain ⟨w4, h4⟩ := hr
  simp only [start, procArgs, h1, h2, h3, h4]
  split
  · exact Or.inr rfl
  · exact Or.inl ⟨_, rfl⟩

theorem itemWords_error {v : Var} {xs : List PyVal} {m : CStr} (h : itemWords v xs = .error m) :
    m = v.name ++ c!" item must be a string" ∧ ¬∃ ss : List CStr, xs = ss.map .str := by
  refine ⟨?_, ?_⟩
  · induction xs with
    | nil => cases h
    | cons x xs ih =>
      cases x with
      | str s =>
        simp only [itemWords, itemWord] at h
        cases h1 : itemWords v xs with
        | error m' => rw [h1] at h; exact ih (by rw [h1]; exact h)
        | ok ws => rw [h1] at h; cases h
      | _ => simp only [itemWords, itemWord, Except.error.injEq] at h; exact h.symm
  · rintro ⟨ss, rfl⟩
    rw [itemWords_strs] at h
    cases h

theorem forVars_error {one : Var → PyVal → Except CStr (List CStr)} {call : Var → PyVal} {vs : List Var} {m : CStr}
    (h : forVars one call vs = .error m) : ∃ v ∈ vs, one v (call v) = .error m := by
  induction vs with
  | nil => cases h
  | cons v vs ih =>
    simp only [forVars] at h
    cases h1 : one v (call v) with
    | error m' => rw [h1] at h; exact ⟨v, by simp, by rw [h1]; exact h⟩
    | ok w =>
      rw [h1] at h
      simp only at h
      cases h2 : forVars one call vs with
      | error m' =>
        rw [h2] at h
        obtain ⟨v', hv, he⟩ := ih (by rw [h2]; exact h)
        exact ⟨v', by simp [hv], he⟩
      | ok w' => rw [h2] at h; cases h

/-- C60, the message: it names a parameter that has a value of the wrong type, and says what is expected. -/
theorem C60_message (call : Var → PyVal) (m : CStr) (h : start call = .valueError m) :
    m = c!"embedded null byte" ∨ ∃ v, WrongType v (call v) ∧ m = complaint v (call v) := by
  have hlist : ∀ v ∈ strListVars, listWords v (call v) = .error m → ∃ v, WrongType v (call v) ∧ m = complaint v (call v) := by
    intro v hv he
    refine ⟨v, ?_⟩
    simp only [strListVars, List.mem_cons, List.not_mem_nil, or_false] at hv
    cases hc : call v with
    | list xs =>
      rw [hc] at he
      obtain ⟨h1, h2⟩ := itemWords_error he
      rcases hv with rfl | rfl
      · exact ⟨by rintro ⟨ss, hs⟩; exact h2 ⟨ss, PyVal.list.inj hs⟩, h1⟩
      · exact ⟨by rintro ⟨ss, hs⟩; exact h2 ⟨ss, PyVal.list.inj hs⟩, h1⟩
    | _ =>
      rw [hc] at he
      simp only [listWords, Except.error.injEq] at he
      rcases hv with rfl | rfl <;> exact ⟨(by rintro ⟨ss, hs⟩; cases hs), he.symm⟩
  have hint : ∀ v ∈ intVars, intWords v (call v) = .error m → ∃ v, WrongType v (call v) ∧ m = complaint v (call v) := by
    intro v hv he
    refine ⟨v, ?_⟩
    simp only [intVars, List.mem_cons, List.not_mem_nil, or_false] at hv
    cases hc : call v with
    | int n => rw [hc] at he; cases he
    | bool b => rw [hc] at he; cases he
    | _ =>
      rw [hc] at he
      simp only [intWords, Except.error.injEq] at he
      rcases hv with rfl | rfl | rfl | rfl | rfl | rfl | rfl | rfl | rfl <;>
        exact ⟨by rintro (⟨n, hn⟩ | ⟨b, hb⟩) <;> contradiction, he.symm⟩
  have hstr : ∀ v ∈ strVars, strWords v (call v) = .error m → ∃ v, WrongType v (call v) ∧ m = complaint v (call v) := by
    intro v hv he
    refine ⟨v, ?_⟩
    simp only [strVars, List.mem_cons, List.not_mem_nil, or_false] at hv
    cases hc : call v with
    | str s => rw [hc] at he; cases he
    | _ =>
      rw [hc] at he
      simp only [strWords, Except.error.injEq] at he
      rcases hv with rfl | rfl | rfl | rfl | rfl <;> exact ⟨(by rintro ⟨s, hs⟩; cases hs), he.symm⟩
  have hrule : seccompWords (call .seccompRuleName) = .error m → ∃ v, WrongType v (call v) ∧ m = complaint v (call v) := by
    intro he
    refine ⟨.seccompRuleName, ?_⟩
    cases hc : call .seccompRuleName with
    | str s => rw [hc] at he; cases he
    | none => rw [hc] at he; cases he
    | _ =>
      rw [hc] at he
      simp only [seccompWords, Except.error.injEq] at he
      exact ⟨by rintro (⟨n, hn⟩ | hb) <;> contradiction, he.symm⟩
  unfold start procArgs at h
  cases h1 : forVars listWords call strListVars with
  | error m' =>
    rw [h1] at h
    simp only [Started.valueError.injEq] at h
    subst h
    obtain ⟨v, hv, he⟩ := forVars_error h1
    exact Or.inr (hlist v hv he)
  | ok w1 =>
  cases h2 : forVars intWords call intVars with
  | error m' =>
    rw [h1, h2] at h
    simp only [Started.valueError.injEq] at h
    subst h
    obtain ⟨v, hv, he⟩ := forVars_error h2
    exact Or.inr (hint v hv he)
  | ok w2 =>
  cases h3 : forVars strWords call strVars with
  | error m' =>
    rw [h1, h2, h3] at h
    simp only [Started.valueError.injEq] at h
    subst h
    obtain ⟨v, hv, he⟩ := forVars_error h3
    exact Or.inr (hstr v hv he)
  | ok w3 =>
  cases h4 : seccompWords (call .seccompRuleName) with
  | error m' =>
    rw [h1, h2, h3, h4] at h
    simp only [Started.valueError.injEq] at h
    subst h
    exact Or.inr (hrule h4)
  | ok w4 =>
    rw [h1, h2, h3, h4] at h
    simp only at h
    split at h
    · simp only [Started.valueError.injEq] at h
      exact Or.inl h.symm
    · cases h

example : complaint .args (.list [.int 1]) = c!"args item must be a string" ∧ complaint .uid .none = c!"uid must be a int" := ⟨rfl, rfl⟩

example : WrongType .args (.list [.str c!"a", .int 1]) ∧ WrongType .maxStack (.str c!"1") ∧ WrongType .uid .none ∧
    WrongType .exePath .none ∧ WrongType .seccompRuleName (.int 0) ∧ ¬WrongType .seccompRuleName .none := by
  refine ⟨?_, ?_, ?_, ?_, ?_, ?_⟩ <;> simp only [WrongType]
  · rintro ⟨ss, h⟩
    match ss with
    | [] => simp at h
    | [_] => simp at h
    | _ :: _ :: _ => simp at h
  all_goals simp

/-! ## C61 -/

theorem seven_ascii (r : Result) : ∀ m ∈ sevenMembers r, ∀ c ∈ m.1, c.toNat < 0x80 := by
  intro m hm
  have : m.1 ∈ (sevenMembers r).map (·.1) := List.mem_map_of_mem hm
  exact (by decide : ∀ k ∈ [c!"cpu_time", c!"real_time", c!"memory", c!"signal", c!"exit_code", c!"error", c!"result"], ∀ c ∈ k, c.toNat < 0x80) _ this

theorem result_ascii (r : Result) : ∀ c ∈ resultText r, c.toNat < 0x80 := by
  intro c hc
  rw [resultText_lines] at hc
  rcases List.mem_cons.1 hc with rfl | hc
  · decide
  rcases List.mem_cons.1 hc with rfl | hc
  · decide
  exact lines_ascii _ (seven_ascii r) c hc

/-- C61: when the judger prints its result and nothing is written to stderr, the dict has exactly the seven members with `run()`'s
values. -/
theorem C61_returns_result (r : Result) : finish (resultText r) [] = .value (.ofInts (sevenMembers r)) := by
  simp only [finish, C58_parse, (decodes_iff _).2 (utf8_ascii (result_ascii r)), ne_eq, not_true_eq_false, if_false, Bool.true_eq_false]

/-- C61: anything on stderr raises `ValueError`, whatever was printed. -/
theorem C61_stderr_raises (out err : CStr) (h : err ≠ []) : ∃ msg, finish out err = .valueError msg :=
  ⟨_, if_pos h⟩

/-- C61: anything printed that is no UTF-8 text raises `ValueError`, wherever the bytes stand. -/
theorem C61_no_text_raises (out err : CStr) (h : ¬Utf8 out) : ∃ msg, finish out err = .valueError msg := by
  unfold finish
  split
  · exact ⟨_, rfl⟩
  · rw [if_pos (Bool.eq_false_iff.2 fun hd => h ((decodes_iff _).1 hd))]
    exact ⟨_, rfl⟩

/-- The byte 0xFF inside a JSON string. -/
example : ∃ msg, finish (c!"{\"a\": \"" ++ [byte 0xFF] ++ c!"\"}") [] = .valueError msg :=
  C61_no_text_raises _ _ fun h => absurd ((decodes_iff _).2 h) (by decide +kernel)

/-- What `run()` itself writes to the judger's stderr (logger.c:17, 33). -/
def stderrText : List Eff → CStr
  | [] => []
  | .logOpenFailed p :: es => c!"can not open log file " ++ p ++ stderrText es
  | .stderrNote m :: es => m ++ stderrText es
  | _ :: es => stderrText es

/-- C59 and C61 together: an acceptable Python call returns exactly what `run()` stores for the configuration described, or raises
`ValueError` if `run()` wrote to stderr. -/
theorem C61_whole_call (q : Request) (hq : q.Ok) (hn : q.args.length ≠ 255 ∨ q.env = []) (posix : Bool) (junk : Cells)
    (prior r : Result) (e : RunEnv) (effs : List Eff) (hr : run q.wanted prior e = .returned r effs) :
    ∃ argv c, start q.call = .popen argv ∧ MainDoes posix junk argv (.runs c) ∧ run c prior e = .returned r effs ∧
      (stderrText effs = [] → finish (resultText r) (stderrText effs) = .value (.ofInts (sevenMembers r))) ∧
      (stderrText effs ≠ [] → ∃ msg, finish (resultText r) (stderrText effs) = .valueError msg) := by
  obtain ⟨argv, h1, h2⟩ := C59_configuration_partial q hq hn
  exact ⟨argv, q.wanted, h1, h2 posix junk, hr, fun h => by rw [h]; exact C61_returns_result r, C61_stderr_raises _ _⟩

example : finish (resultText ⟨1, 2, 3, 0, 0, 0, -1⟩) [] = .value (.ofInts [(c!"cpu_time", 1), (c!"real_time", 2), (c!"memory", 3),
    (c!"signal", 0), (c!"exit_code", 0), (c!"error", 0), (c!"result", -1)]) := C61_returns_result _

end Judger
