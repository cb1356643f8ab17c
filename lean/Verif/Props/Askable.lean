import Verif.Props.Cli
import Verif.Props.Python
import Verif.Spec.Askable

/-! # C132: every configuration can be asked for -/

set_option autoImplicit false

namespace Judger

open Judger.Spec Judger.Spec.Cli

/-- C132, the full claim: whatever configuration run() takes, with texts that can be options, there is a command line that asks for it. -/
def C132_full : Prop :=
  ∀ (posix : Bool) (junk : Cells) (a : CStr) (c : Config), ConfigOk c → c.InRange → PlainTexts c →
    ∃ ws, (∀ w ∈ ws, Passable w) ∧ MainDoes posix junk (a :: ws) (.runs c)

/-! ## What is asked for is askable -/

theorem scan_within {posix : Bool} {ws : List CStr} {is : List Item} (h : Scan posix ws is) (o : Opt) (v : CStr) (hv : v ∈ given o is) :
    ∃ w ∈ ws, v ⊆ w := by
  have opt : ∀ (o' : Opt) (u : CStr) (is : List Item), v ∈ given o (.opt o' (some u) :: is) → v = u ∨ v ∈ given o is := by
    intro o' u is h
    simp only [given] at h
    split at h
    · exact List.mem_cons.1 h
    · exact Or.inr h
  induction h with
  | nil => simp [given] at hv
  | value n u o' ws is _ _ _ ih =>
    rcases opt _ _ _ hv with rfl | hv
    · exact ⟨_, .head _, fun x hx => by simp [hx]⟩
    · obtain ⟨w, h1, h2⟩ := ih hv
      exact ⟨w, .tail _ h1, h2⟩
  | spaced n u o' ws is _ _ _ ih =>
    rcases opt _ _ _ hv with rfl | hv
    · exact ⟨v, .tail _ (.head _), fun _ hx => hx⟩
    · obtain ⟨w, h1, h2⟩ := ih hv
      exact ⟨w, .tail _ (.tail _ h1), h2⟩
  | flag n o' ws is _ _ _ ih =>
    obtain ⟨w, h1, h2⟩ := ih hv
    exact ⟨w, .tail _ h1, h2⟩
  | missing => simp [given] at hv
  | unknown b ws is _ _ _ _ ih =>
    obtain ⟨w, h1, h2⟩ := ih hv
    exact ⟨w, .tail _ h1, h2⟩
  | letters s ws is _ _ _ ih =>
    obtain ⟨w, h1, h2⟩ := ih hv
    exact ⟨w, .tail _ h1, h2⟩
  | lettersLong s b ws is _ _ _ _ ih =>
    obtain ⟨w, h1, h2⟩ := ih hv
    rcases List.mem_cons.1 h1 with rfl | h1
    · refine ⟨_, .head _, fun x hx => ?_⟩
      have := h2 hx
      simp at this ⊢
      tauto
    · exact ⟨w, .tail _ h1, h2⟩
  | positional w ws is _ _ _ ih =>
    obtain ⟨w, h1, h2⟩ := ih hv
    exact ⟨w, .tail _ h1, h2⟩
  | positionalEnd => simp [given] at hv
  | dashes ws => split at hv <;> simp [given] at hv

theorem mem_given {o : Opt} {v : CStr} {is : List Item} (h : v ∈ given o is) : Item.opt o (some v) ∈ is := by
  induction is with
  | nil => simp [given] at h
  | cons i is ih =>
    unfold given at h
    split at h
    · simp at *
    · rename_i o' v' is' heq
      injection heq with h1 h2
      subst h1 h2
      split at h
      · rename_i ho
        subst ho
        rcases List.mem_cons.1 h with rfl | h
        · exact .head _
        · exact .tail _ (ih h)
      · exact .tail _ (ih h)
    · rename_i heq
      injection heq with h1 h2
      subst h1 h2
      exact .tail _ (ih h)

theorem runs_askable {posix : Bool} {junk : Cells} {a : CStr} {ws : List CStr} {c : Config} (hw : ∀ w ∈ ws, Passable w)
    (h : MainDoes posix junk (a :: ws) (.runs c)) : Askable c := by
  obtain ⟨is, hs, _⟩ := main_scan h
  obtain ⟨hf, hm, ha, he⟩ := runs_inv hs h
  have pl : ∀ o v, v ∈ given o is → Sendable v := by
    intro o v hv
    refine ⟨hf.filled o v (mem_given hv), fun h0 => ?_⟩
    obtain ⟨w, h1, h2⟩ := scan_within hs o v hv
    exact hw w h1 (h2 h0)
  have txt : ∀ o d t, TextIs o is d t → Sendable d → Sendable t := by
    rintro o d t (h1 | ⟨_, rfl⟩) hd
    · exact pl o t (by simp [h1])
    · exact hd
  have int : ∀ o d n, o.takes = .int → IntIs o is d n → IsInt d → IsInt n := by
    rintro o d n ho (⟨t, h1, h2⟩ | ⟨_, rfl⟩) hd
    · obtain ⟨m, h3, h4⟩ := hf.ints o t (mem_given (by simp [h1])) ho
      rw [loose_unique h3 h4 h2]
      exact h4
    · exact hd
  have len : ∀ o, (given o is).length ≤ o.atMost := fun o => Nat.le_trans (given_length_le o is) (hf.often o)
  constructor
  · constructor
    · exact pl .exePath _ (by simp [hm.exe])
    · obtain ⟨t, h1, h2⟩ := hm.input; exact ⟨t, h2, txt _ _ _ h1 (by simp [Sendable])⟩
    · obtain ⟨t, h1, h2⟩ := hm.output; exact ⟨t, h2, txt _ _ _ h1 (by simp [Sendable])⟩
    · obtain ⟨t, h1, h2⟩ := hm.error; exact ⟨t, h2, txt _ _ _ h1 (by simp [Sendable])⟩
    · exact txt _ _ _ hm.log (by simp [Sendable])
    · intro t ht
      rcases hm.seccomp with ⟨u, h1, h2⟩ | ⟨_, h2⟩
      · rw [h2] at ht; cases ht; exact pl .seccompRuleName _ (by simp [h1])
      · rw [h2] at ht; cases ht
    · exact ⟨given .args is, len .args, fun s hs => pl _ s hs, by rw [he]; exact ha⟩
    · rw [he]; exact ⟨len .env, fun s hs => pl _ s hs⟩
    · obtain ⟨n, _, h2⟩ := hm.check
      rw [h2]; split <;> simp
  · exact int _ _ _ rfl hm.cpu (by decide)
  · exact int _ _ _ rfl hm.real (by decide)
  · exact int _ _ _ rfl hm.mem (by decide)
  · exact int _ _ _ rfl hm.stack (by decide)
  · exact int _ _ _ rfl hm.nproc (by decide)
  · exact int _ _ _ rfl hm.out (by decide)
  · obtain ⟨n, _, h2⟩ := hm.uid
    rw [h2, castU32]; omega
  · obtain ⟨n, _, h2⟩ := hm.gid
    rw [h2, castU32]; omega

/-! ## What is askable can be asked for -/

/-- An `int` that stands for an unsigned number. -/
def asInt (u : Int) : Int := if u < 2147483648 then u else u - 4294967296

theorem asInt_int {u : Int} (h : 0 ≤ u ∧ u < 4294967296) : IsInt (asInt u) ∧ castU32 (asInt u) = u := by
  unfold asInt castU32 IsInt INT_MIN INT_MAX
  split <;> omega

/-- All options, one after the other. -/
def askEntries (c : Config) (as : List CStr) : List Entry :=
  (as.map fun s => ⟨Opt.args.name, .args, s⟩) ++ ((c.env.map fun s => ⟨Opt.env.name, .env, s⟩) ++
  ((c.inputPath.toList.map fun s => ⟨Opt.inputPath.name, .inputPath, s⟩) ++ ((c.outputPath.toList.map fun s => ⟨Opt.outputPath.name, .outputPath, s⟩) ++
  ((c.errorPath.toList.map fun s => ⟨Opt.errorPath.name, .errorPath, s⟩) ++ ((c.seccompRuleName.toList.map fun s => ⟨Opt.seccompRuleName.name, .seccompRuleName, s⟩) ++
  ([⟨Opt.exePath.name, .exePath, c.exePath⟩] ++ ([⟨Opt.logPath.name, .logPath, c.logPath⟩] ++
  ([⟨Opt.maxCpuTime.name, .maxCpuTime, showInt c.maxCpuTime⟩] ++ ([⟨Opt.maxRealTime.name, .maxRealTime, showInt c.maxRealTime⟩] ++
  ([⟨Opt.maxMemory.name, .maxMemory, showInt c.maxMemory⟩] ++ ([⟨Opt.maxStack.name, .maxStack, showInt c.maxStack⟩] ++
  ([⟨Opt.maxOutputSize.name, .maxOutputSize, showInt c.maxOutputSize⟩] ++ ([⟨Opt.maxProcessNumber.name, .maxProcessNumber, showInt c.maxProcessNumber⟩] ++
  ([⟨Opt.uid.name, .uid, showInt (asInt c.uid)⟩] ++ ([⟨Opt.gid.name, .gid, showInt (asInt c.gid)⟩] ++
  [⟨Opt.memoryLimitCheckOnly.name, .memoryLimitCheckOnly, showInt c.memoryLimitCheckOnly⟩])))))))))))))))

theorem vals_askEntries (c : Config) (as : List CStr) (o : Opt) : entryVals o (askEntries c as) =
    match o with
    | .args => as
    | .env => c.env
    | .inputPath => c.inputPath.toList
    | .outputPath => c.outputPath.toList
    | .errorPath => c.errorPath.toList
    | .seccompRuleName => c.seccompRuleName.toList
    | .exePath => [c.exePath]
    | .logPath => [c.logPath]
    | .maxCpuTime => [showInt c.maxCpuTime]
    | .maxRealTime => [showInt c.maxRealTime]
    | .maxMemory => [showInt c.maxMemory]
    | .maxStack => [showInt c.maxStack]
    | .maxOutputSize => [showInt c.maxOutputSize]
    | .maxProcessNumber => [showInt c.maxProcessNumber]
    | .uid => [showInt (asInt c.uid)]
    | .gid => [showInt (asInt c.gid)]
    | .memoryLimitCheckOnly => [showInt c.memoryLimitCheckOnly]
    | .help | .version => [] := by
  simp only [askEntries, entryVals_append, entryVals_list, entryVals_one]
  cases o <;> simp

theorem askEntries_names {c : Config} {as : List CStr} {e : Entry} (h : e ∈ askEntries c as) : e.name = e.opt.name := by
  simp only [askEntries, List.mem_append, List.mem_map, List.mem_singleton] at h
  rcases h with ⟨s, _, rfl⟩ | ⟨s, _, rfl⟩ | ⟨s, _, rfl⟩ | ⟨s, _, rfl⟩ | ⟨s, _, rfl⟩ | ⟨s, _, rfl⟩ | rfl | rfl | rfl | rfl | rfl | rfl | rfl | rfl | rfl | rfl | rfl <;> rfl

theorem askEntries_val {c : Config} {as : List CStr} {e : Entry} (h : e ∈ askEntries c as) : e.val ∈ entryVals e.opt (askEntries c as) :=
  mem_entryVals.2 ⟨e, h, rfl, rfl⟩

theorem showInt_sendable (n : Int) : Sendable (showInt n) := ⟨showInt_ne_nil n, showInt_noNul n⟩

theorem askable_runs (posix : Bool) (junk : Cells) (a : CStr) {c : Config} (h : Askable c) :
    ∃ ws, (∀ w ∈ ws, Passable w) ∧ MainDoes posix junk (a :: ws) (.runs c) := by
  obtain ⟨as, hl, hp, hargs⟩ := h.args
  have hv := vals_askEntries c as
  have plain : ∀ e ∈ askEntries c as, Sendable e.val := by
    intro e he
    have h1 := askEntries_val he
    rw [hv] at h1
    obtain ⟨ti, hi1, hi2⟩ := h.input
    obtain ⟨u, ho1, ho2⟩ := h.output
    obtain ⟨te, he1, he2⟩ := h.error
    cases ho : e.opt <;> rw [ho] at h1 <;> simp only [List.mem_singleton, List.not_mem_nil] at h1
    case args => exact hp _ h1
    case env => exact h.env.2 _ h1
    case inputPath => rw [hi1] at h1; simp at h1; rw [h1]; exact hi2
    case outputPath => rw [ho1] at h1; simp at h1; rw [h1]; exact ho2
    case errorPath => rw [he1] at h1; simp at h1; rw [h1]; exact he2
    case seccompRuleName => exact h.rules _ (by simpa using h1)
    case exePath => rw [h1]; exact h.exe
    case logPath => rw [h1]; exact h.log
    all_goals (rw [h1]; exact showInt_sendable _)
  have good : ∀ e ∈ askEntries c as, e.Good := by
    intro e he
    refine ⟨by rw [askEntries_names he]; exact calls_full _, fun h0 => ?_⟩
    have h1 := askEntries_val he
    rw [hv] at h1
    cases ho : e.opt <;> rw [ho] at h1 h0 <;> simp [Opt.takes] at h0 <;> simp at h1
  have fine : Fine ((askEntries c as).map Entry.item) := by
    apply fine_entries (fun e he => (plain e he).1)
    · intro e he ht
      have h1 := askEntries_val he
      rw [hv] at h1
      have hflag : IsInt c.memoryLimitCheckOnly := by rcases h.flag with h | h <;> rw [h] <;> decide
      cases ho : e.opt <;> rw [ho] at h1 ht <;> simp [Opt.takes] at ht <;> simp only [List.mem_singleton] at h1 <;> rw [h1] <;>
        refine ⟨_, Or.inl (intText_showInt _), ?_⟩
      case maxCpuTime => exact h.cpu
      case maxRealTime => exact h.real
      case maxMemory => exact h.mem
      case memoryLimitCheckOnly => exact hflag
      case maxStack => exact h.stack
      case maxProcessNumber => exact h.nproc
      case maxOutputSize => exact h.out
      case uid => exact (asInt_int h.uid).1
      case gid => exact (asInt_int h.gid).1
    · intro o
      rw [hv]
      have tl : ∀ x : Option CStr, x.toList.length ≤ 1 := by intro x; cases x <;> simp
      cases o <;> simp only [Opt.atMost, List.length_singleton, List.length_nil, Nat.le_refl, Nat.zero_le, tl]
      · exact hl
      · exact h.env.1
    · rw [hv]; simp
  unfold entryVals at hv
  have int : ∀ (o : Opt) (d n : Int), given o ((askEntries c as).map Entry.item) = [showInt n] → IntIs o ((askEntries c as).map Entry.item) d n :=
    fun o d n h1 => Or.inl ⟨_, h1, Or.inl (intText_showInt n)⟩
  refine ⟨(askEntries c as).map Entry.word, ?_, ?_⟩
  · intro w hw
    obtain ⟨e, he, rfl⟩ := List.mem_map.1 hw
    exact word_noNul (by rw [askEntries_names he]; exact name_noNul _) (plain e he).2
  · refine runs_of_means (scan_entries posix _ good) fine (entries_noFlag good rfl) (entries_noFlag good rfl) ?_ ?_ ?_
    · obtain ⟨ti, hi1, hi2⟩ := h.input
      obtain ⟨u, ho1, ho2⟩ := h.output
      obtain ⟨te, he1, he2⟩ := h.error
      exact
        { cpu := int _ _ _ (hv .maxCpuTime)
          real := int _ _ _ (hv .maxRealTime)
          mem := int _ _ _ (hv .maxMemory)
          check := ⟨_, int _ _ _ (hv .memoryLimitCheckOnly), by rcases h.flag with h | h <;> rw [h] <;> rfl⟩
          stack := int _ _ _ (hv .maxStack)
          nproc := int _ _ _ (hv .maxProcessNumber)
          out := int _ _ _ (hv .maxOutputSize)
          exe := hv .exePath
          input := ⟨ti, Or.inl (by rw [hv .inputPath]; simp [hi1]), hi1⟩
          output := ⟨u, Or.inl (by rw [hv .outputPath]; simp [ho1]), ho1⟩
          error := ⟨te, Or.inl (by rw [hv .errorPath]; simp [he1]), he1⟩
          log := Or.inl (hv .logPath)
          seccomp := by
            have h1 := hv .seccompRuleName
            cases hs : c.seccompRuleName with
            | none => right; exact ⟨by simpa [hs] using h1, rfl⟩
            | some t => left; exact ⟨t, by simpa [hs] using h1, rfl⟩
          uid := ⟨_, int _ _ _ (hv .uid), (asInt_int h.uid).2.symm⟩
          gid := ⟨_, int _ _ _ (hv .gid), (asInt_int h.gid).2.symm⟩ }
    · rw [hv .args, hv .env]; exact hargs
    · rw [hv .env]

/-- C132, exactly what a command line can ask for. -/
theorem C132_exact (posix : Bool) (junk : Cells) (a : CStr) (c : Config) :
    (∃ ws, (∀ w ∈ ws, Passable w) ∧ MainDoes posix junk (a :: ws) (.runs c)) ↔ Askable c :=
  ⟨fun ⟨_, hw, h⟩ => runs_askable hw h, askable_runs posix junk a⟩

/-- C132, the part that holds: limits on memory, stack and output below 2 GiB.  Missing: larger ones (`C132_false`). -/
theorem C132_small_partial (posix : Bool) (junk : Cells) (a : CStr) (c : Config) (hr : c.InRange) (ht : PlainTexts c)
    (hm : IsInt c.maxMemory) (hs : IsInt c.maxStack) (ho : IsInt c.maxOutputSize) :
    ∃ ws, (∀ w ∈ ws, Passable w) ∧ MainDoes posix junk (a :: ws) (.runs c) :=
  (C132_exact posix junk a c).2 { ht with cpu := hr.cpu, real := hr.real, mem := hm, stack := hs, nproc := hr.nproc, out := ho, uid := hr.uid, gid := hr.gid }

/-- A call of the Python binding asks for no more. -/
theorem C132_python_only (posix : Bool) (junk : Cells) (call : Py.Var → Py.PyVal) (argv : List CStr) (c : Config)
    (hc : Py.start call = .popen argv) (h : MainDoes posix junk argv (.runs c)) : Askable c := by
  unfold Py.start at hc
  split at hc
  · cases hc
  · rename_i ws _
    split at hc
    · cases hc
    · rename_i hn
      cases hc
      refine runs_askable (fun w hw h0 => hn ?_) h
      rw [List.any_eq_true]
      exact ⟨w, hw, by simpa using h0⟩

/-- The Python binding can ask for what a command line can, but for the three values that it takes for "not given". -/
theorem C132_python_partial (c : Config) (h : Askable c) (hs : c.maxStack ≠ -1) (hu : c.uid ≠ 4294967295) (hg : c.gid ≠ 4294967295) :
    ∃ call argv, Py.start call = .popen argv ∧ ∀ (posix : Bool) (junk : Cells), MainDoes posix junk argv (.runs c) := by
  obtain ⟨as, hl, hp, hargs⟩ := h.args
  obtain ⟨ti, hi1, hi2⟩ := h.input
  obtain ⟨u, ho1, ho2⟩ := h.output
  obtain ⟨te, he1, he2⟩ := h.error
  let q : Spec.Python.Request := ⟨c.maxCpuTime, c.maxRealTime, c.maxMemory, c.maxStack, c.maxOutputSize, c.maxProcessNumber, c.exePath, ti, u, te, as, c.env,
    c.logPath, c.seccompRuleName, asInt c.uid, asInt c.gid, c.memoryLimitCheckOnly⟩
  have hflag : IsInt c.memoryLimitCheckOnly := by rcases h.flag with h | h <;> rw [h] <;> decide
  have hq : q.Ok := by
    have all : ∀ s ∈ [c.exePath, ti, u, te, c.logPath] ++ as ++ c.env, Sendable s := by
      intro s hs
      simp only [List.mem_append, List.mem_cons, List.not_mem_nil, or_false] at hs
      rcases hs with ((rfl | rfl | rfl | rfl | rfl) | hs) | hs
      · exact h.exe
      · exact hi2
      · exact ho2
      · exact he2
      · exact h.log
      · exact hp s hs
      · exact h.env.2 s hs
    refine ⟨?_, fun s hs => (all s hs).1, fun s hs => ?_, hl, h.env.1⟩
    · intro n hn
      simp only [q, List.mem_cons, List.not_mem_nil, or_false] at hn
      rcases hn with rfl | rfl | rfl | rfl | rfl | rfl | rfl | rfl | rfl
      · exact h.cpu
      · exact h.real
      · exact h.mem
      · exact h.stack
      · exact h.out
      · exact h.nproc
      · exact (asInt_int h.uid).1
      · exact (asInt_int h.gid).1
      · exact hflag
    · rcases List.mem_append.1 hs with hs | hs
      · exact (all s hs).2
      · exact (h.rules s (by simpa [q] using hs)).2
  obtain ⟨argv, h1, h2⟩ := C59_exact q hq
  refine ⟨q.call, argv, h1, fun posix junk => ?_⟩
  have hid : ∀ n : Int, 0 ≤ n ∧ n < 4294967296 → n ≠ 4294967295 → castU32 (Spec.Python.orDefault 65534 (asInt n)) = n := by
    intro n hn hne
    have h1 : asInt n ≠ -1 := by unfold asInt; split <;> omega
    rw [Spec.Python.orDefault, if_neg h1]
    exact (asInt_int hn).2
  have hc : { q.wanted with args := q.exePath :: (q.args ++ if q.args.length = 255 then q.env else []) } = c := by
    have e1 : Spec.Python.orDefault 16777216 c.maxStack = c.maxStack := if_neg hs
    have e2 : (if Spec.Python.orDefault 0 c.memoryLimitCheckOnly = 0 then (0 : Int) else 1) = c.memoryLimitCheckOnly := by
      rcases h.flag with h | h <;> rw [h] <;> rfl
    have e3 : (if c.seccompRuleName = some [] then none else c.seccompRuleName) = c.seccompRuleName :=
      if_neg fun h0 => (h.rules _ h0).1 rfl
    have e4 := hid _ h.uid hu
    have e5 := hid _ h.gid hg
    simp only [q, Spec.Python.Request.wanted, e1, e2, e3, e4, e5, ← hi1, ← ho1, ← he1, ← hargs]
  have := h2 posix junk
  rw [hc] at this
  exact this

/-- A judging with a memory limit of `n` bytes. -/
def roomy (n : Int) : Config where
  maxCpuTime := 1000
  maxRealTime := 2000
  maxMemory := n
  maxStack := 16777216
  maxProcessNumber := -1
  maxOutputSize := -1
  memoryLimitCheckOnly := 0
  exePath := c!"/bin/ls"
  inputPath := some c!"/in"
  outputPath := some c!"/out"
  errorPath := some c!"/out"
  args := [c!"/bin/ls", c!"-l"]
  env := [c!"A=b"]
  logPath := c!"log"
  seccompRuleName := some c!"general"
  uid := 65534
  gid := 65534

theorem roomy_texts (n : Int) : PlainTexts (roomy n) where
  exe := by simp [roomy, Sendable]
  input := ⟨_, rfl, by simp [Sendable]⟩
  output := ⟨_, rfl, by simp [Sendable]⟩
  error := ⟨_, rfl, by simp [Sendable]⟩
  log := by simp [roomy, Sendable]
  rules := by simp [roomy, Sendable]
  args := ⟨[c!"-l"], by simp, by simp [Sendable], by simp [roomy]⟩
  env := by simp [roomy, Sendable]
  flag := Or.inl rfl

theorem roomy_ok {n : Int} (hn : 1 ≤ n) (hl : IsLong n) : ConfigOk (roomy n) ∧ (roomy n).InRange := by
  refine ⟨?_, ?_⟩
  · simp [ConfigOk, LimitOk, roomy]
    omega
  · constructor <;> first | exact hl | (simp only [roomy]; decide)

/-- Half a GiB can be asked for, on the command line and in Python. -/
example : ∃ call argv, Py.start call = .popen argv ∧ ∀ (posix : Bool) (junk : Cells), MainDoes posix junk argv (.runs (roomy 536870912)) := by
  refine C132_python_partial _ ?_ (by decide) (by decide) (by decide)
  have hr := (roomy_ok (n := 536870912) (by decide) (by decide)).2
  exact { roomy_texts _ with cpu := hr.cpu, real := hr.real, mem := by decide, stack := by decide, nproc := hr.nproc, out := by decide, uid := hr.uid, gid := hr.gid }

example : ∃ ws, (∀ w ∈ ws, Passable w) ∧ MainDoes true (fun _ => none) (c!"judger" :: ws) (.runs (roomy 536870912)) :=
  C132_small_partial _ _ _ _ (roomy_ok (by decide) (by decide)).2 (roomy_texts _) (by decide) (by decide) (by decide)

/-- A call with which `C132_python_only` is concerned. -/
example : ∃ call argv c, Py.start call = .popen argv ∧ MainDoes false (fun _ => none) argv (.runs c) ∧ Askable c := by
  have hr := (roomy_ok (n := 1) (by decide) (by decide)).2
  obtain ⟨call, argv, h1, h2⟩ := C132_python_partial (roomy 1)
    { roomy_texts _ with cpu := hr.cpu, real := hr.real, mem := by decide, stack := by decide, nproc := hr.nproc, out := by decide, uid := hr.uid, gid := hr.gid }
    (by decide) (by decide) (by decide)
  exact ⟨call, argv, _, h1, h2 _ _, C132_python_only false (fun _ => none) _ _ _ h1 (h2 _ _)⟩

/-- Four GiB cannot, though run() takes them. -/
theorem C132_witness : ConfigOk (roomy 4294967296) ∧ (roomy 4294967296).InRange ∧ PlainTexts (roomy 4294967296) ∧
    ∀ (posix : Bool) (junk : Cells) (a : CStr) (ws : List CStr), (∀ w ∈ ws, Passable w) → ¬MainDoes posix junk (a :: ws) (.runs (roomy 4294967296)) := by
  obtain ⟨h1, h2⟩ := roomy_ok (n := 4294967296) (by decide) (by decide)
  refine ⟨h1, h2, roomy_texts _, fun posix junk a ws hw h => ?_⟩
  have := (runs_askable hw h).mem
  revert this
  decide

/-- C132 is false of the code. -/
theorem C132_false : ¬C132_full := by
  intro h
  obtain ⟨h1, h2, h3, h4⟩ := C132_witness
  obtain ⟨ws, h5, h6⟩ := h false (fun _ => none) c!"judger" _ h1 h2 h3
  exact h4 _ _ _ ws h5 h6

end Judger
