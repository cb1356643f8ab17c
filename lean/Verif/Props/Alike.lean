import Verif.Props.Python
import Verif.Props.Node
import Verif.Spec.Alike

/-! # C115: the same request in Python and in Node asks for the same run -/

set_option autoImplicit false

namespace Judger

open Judger.Spec

/-- Python and Node, called with the same values, both reach `run()` with the configuration `c`. -/
def BothRun (q : Python.Request) (c : Config) : Prop :=
  (∃ argv, Py.start q.call = .popen argv ∧ ∀ (posix : Bool) (junk : Cells), MainDoes posix junk argv (.runs c)) ∧
  ∃ cmd argv, Node.command (alike q.call) = .ok cmd ∧ Shell.commands cmd = some [argv] ∧ ∀ (posix : Bool) (junk : Cells), MainDoes posix junk argv (.runs c)

/-- All the texts of a request. -/
def Texts (q : Python.Request) : List CStr :=
  [q.exePath, q.inputPath, q.outputPath, q.errorPath, q.logPath] ++ q.args ++ q.env ++ q.seccompRuleName.toList

/-- The request is acceptable, and its texts are such that the shell and the buffers of the Node binding leave them alone (C63). -/
structure Common (q : Python.Request) : Prop where
  ok : q.Ok
  args : q.args.length < 255
  plain : ∀ s ∈ Texts q, AllPlain s ∧ s.length < 255

/-- C115, the full claim. -/
def C115_full : Prop := ∀ q : Python.Request, Common q → ∃ c, BothRun q c

/-- The option of a parameter. -/
def optOf : Py.Var → Cli.Opt
  | .maxCpuTime => .maxCpuTime
  | .maxRealTime => .maxRealTime
  | .maxMemory => .maxMemory
  | .maxStack => .maxStack
  | .maxOutputSize => .maxOutputSize
  | .maxProcessNumber => .maxProcessNumber
  | .exePath => .exePath
  | .inputPath => .inputPath
  | .outputPath => .outputPath
  | .errorPath => .errorPath
  | .args => .args
  | .env => .env
  | .logPath => .logPath
  | .seccompRuleName => .seccompRuleName
  | .uid => .uid
  | .gid => .gid
  | .memoryLimitCheckOnly => .memoryLimitCheckOnly

/-- The same as a request to Node. -/
def nodeRequest (q : Python.Request) : Node.Request where
  int
    | .maxCpuTime => some q.maxCpuTime
    | .maxRealTime => some q.maxRealTime
    | .maxMemory => some q.maxMemory
    | .maxStack => some q.maxStack
    | .maxOutputSize => some q.maxOutputSize
    | .maxProcessNumber => some q.maxProcessNumber
    | .uid => some q.uid
    | .gid => some q.gid
    | .memoryLimitCheckOnly => some q.memoryLimitCheckOnly
    | _ => none
  text
    | .exePath => some q.exePath
    | .inputPath => some q.inputPath
    | .outputPath => some q.outputPath
    | .errorPath => some q.errorPath
    | .logPath => some q.logPath
    | .seccompRuleName => q.seccompRuleName
    | _ => none
  args := some q.args
  env := some q.env

theorem alike_get (q : Python.Request) : alike q.call = (nodeRequest q).get := by
  funext key
  have hopt : Node.options = params.map optOf := rfl
  have hname : ∀ v, (optOf v).name = Python.param v := by intro v; cases v <;> rfl
  unfold alike Node.Request.get
  rw [hopt, List.find?_map]
  have : ((fun o : Cli.Opt => decide (o.name = key)) ∘ optOf) = fun v => decide (Python.param v = key) := by
    funext v; simp [hname]
  rw [this]
  cases params.find? (fun v => decide (Python.param v = key)) with
  | none => rfl
  | some v =>
    have hlist : ∀ ss : List CStr, jsOf (.list (ss.map .str)) = .array (ss.map .string) := by
      intro ss; simp [jsOf]
    cases v <;> first | rfl | exact hlist _ | skip
    · show jsOf (q.seccompRuleName.elim .none .str) = (q.seccompRuleName).elim .undefined .string
      cases q.seccompRuleName <;> rfl

theorem nodeRequest_texts {q : Python.Request} {s : CStr} (h : (nodeRequest q).HasText s) : s ∈ Texts q := by
  rcases h with ⟨o, _, h⟩ | h | h
  · cases o <;> simp only [nodeRequest, Option.some.injEq, reduceCtorEq] at h <;> simp [Texts, h]
  · simp only [nodeRequest, Option.getD_some] at h; simp [Texts, h]
  · simp only [nodeRequest, Option.getD_some] at h; simp [Texts, h]

theorem nodeRequest_ok {q : Python.Request} (h : q.Ok) (hr : q.seccompRuleName ≠ some []) : (nodeRequest q).Ok where
  exe := ⟨_, rfl⟩
  ints := by
    intro o n hn
    refine h.ints n ?_
    cases o <;> simp only [nodeRequest, Option.some.injEq, reduceCtorEq] at hn <;> simp [hn]
  filled := by
    intro s hs
    have := nodeRequest_texts hs
    simp only [Texts] at this
    rcases List.mem_append.1 this with this | this
    · exact h.filled s this
    · rintro rfl
      exact hr (by simpa using this)
  noNul := fun s hs => h.noNul s (nodeRequest_texts hs)
  args := h.args
  env := h.env

/-- C115, the part that holds: -1 is not given where the Python binding takes it for the default (`max_stack`, `memory_limit_check_only`, `uid`, `gid`), nor an empty
rule name, which it takes for none.  Missing: those values, which the Node binding passes on (`C115_witness_root`, `C115_witness_stack`). -/
theorem C115_same_partial (q : Python.Request) (h : Common q) (h1 : q.maxStack ≠ -1) (h2 : q.memoryLimitCheckOnly ≠ -1) (h3 : q.uid ≠ -1) (h4 : q.gid ≠ -1)
    (h5 : q.seccompRuleName ≠ some []) : BothRun q q.wanted := by
  have hw : (nodeRequest q).wanted = q.wanted := by
    simp [Node.Request.wanted, Python.Request.wanted, nodeRequest, Python.orDefault, h1, h2, h3, h4, h5]
    by_cases h0 : q.memoryLimitCheckOnly = 0 <;> simp [h0]
  refine ⟨C59_configuration_partial q h.ok (.inl (by have := h.args; omega)), ?_⟩
  rw [alike_get, ← hw]
  exact C63_plain_partial (nodeRequest q) (nodeRequest_ok h.ok h5) h.args (.inr (by simp [nodeRequest]))
    (fun s hs => h.plain s (nodeRequest_texts hs))

/-- What each of the two does with any common request; the configurations may differ. -/
theorem C115_each (q : Python.Request) (h : Common q) (h5 : q.seccompRuleName ≠ some []) :
    (∃ argv, Py.start q.call = .popen argv ∧ ∀ (posix : Bool) (junk : Cells), MainDoes posix junk argv (.runs q.wanted)) ∧
    ∃ cmd argv, Node.command (alike q.call) = .ok cmd ∧ Shell.commands cmd = some [argv] ∧
      ∀ (posix : Bool) (junk : Cells), MainDoes posix junk argv (.runs (nodeRequest q).wanted) := by
  refine ⟨C59_configuration_partial q h.ok (.inl (by have := h.args; omega)), ?_⟩
  rw [alike_get]
  exact C63_plain_partial (nodeRequest q) (nodeRequest_ok h.ok h5) h.args (.inr (by simp [nodeRequest]))
    (fun s hs => h.plain s (nodeRequest_texts hs))

/-- A request with this stack limit and this uid. -/
def twoFaced (stack uid : Int) : Python.Request :=
  { sampleRequest [c!"hello"] [c!"A=1"] with maxStack := stack, uid := uid, memoryLimitCheckOnly := 0 }

theorem twoFaced_common (stack uid : Int) (h1 : IsInt stack) (h2 : IsInt uid) : Common (twoFaced stack uid) where
  ok := by
    obtain ⟨a, b, c, d, e⟩ := sampleRequest_ok [c!"hello"] [c!"A=1"] (by decide) (by decide) (by decide)
    refine ⟨?_, b, c, d, e⟩
    intro n hn
    simp only [twoFaced, sampleRequest, List.mem_cons, List.not_mem_nil, or_false] at hn
    rcases hn with rfl | rfl | rfl | rfl | rfl | rfl | rfl | rfl | rfl <;> first | exact h1 | exact h2 | decide
  args := by show (1 : Nat) < 255; decide
  plain := by simp only [twoFaced, sampleRequest, Texts, AllPlain]; decide

/-- `uid` -1: in Python the program runs as 65534, in Node it keeps the identity of the judger, which is root. -/
theorem C115_witness_root : ∃ q : Python.Request, Common q ∧ q.uid = -1 ∧ q.wanted.uid = 65534 ∧ (nodeRequest q).wanted.uid = keepId :=
  ⟨twoFaced 1048576 (-1), twoFaced_common _ _ (by decide) (by decide), rfl, by decide, by decide⟩

/-- `max_stack` -1: in Python the program gets 16 MiB, in Node the request is refused as invalid. -/
theorem C115_witness_stack : ∃ q : Python.Request, Common q ∧ q.maxStack = -1 ∧ q.wanted.maxStack = 16777216 ∧ ConfigOk q.wanted ∧
    ¬ConfigOk (nodeRequest q).wanted :=
  ⟨twoFaced (-1) 1000, twoFaced_common _ _ (by decide) (by decide), rfl, by decide, by
    unfold ConfigOk LimitOk; decide, by unfold ConfigOk LimitOk; decide⟩

/-- C115 is false of the code. -/
theorem C115_false : ¬C115_full := by
  intro h
  have hc := twoFaced_common 1048576 (-1) (by decide) (by decide)
  obtain ⟨c, ⟨argv, h1, h2⟩, cmd, words, h3, h4, h5⟩ := h _ hc
  obtain ⟨⟨argv', g1, g2⟩, cmd', words', g3, g4, g5⟩ := C115_each _ hc (by decide)
  rw [h1] at g1
  rw [h3] at g3
  simp only [Py.Started.popen.injEq] at g1
  simp only [Node.NRes.ok.injEq] at g3
  subst g1 g3
  rw [h4] at g4
  obtain rfl : words = words' := by simpa using g4
  have k1 := (h2 false (fun _ => none)).unique (g2 false (fun _ => none))
  have k2 := (h5 false (fun _ => none)).unique (g5 false (fun _ => none))
  simp only [MainOut.runs.injEq] at k1 k2
  have : (twoFaced 1048576 (-1)).wanted.uid = (nodeRequest (twoFaced 1048576 (-1))).wanted.uid := by rw [k1, k2]
  exact absurd this (by decide)

/-- C115, settled: a common request without an empty rule name asks for the same run in both exactly if none of `max_stack`, `memory_limit_check_only`, `uid` and
`gid` is -1. -/
theorem C115_exact (q : Python.Request) (h : Common q) (h5 : q.seccompRuleName ≠ some []) :
    (∃ c, BothRun q c) ↔ q.maxStack ≠ -1 ∧ q.memoryLimitCheckOnly ≠ -1 ∧ q.uid ≠ -1 ∧ q.gid ≠ -1 := by
  constructor
  · rintro ⟨c, ⟨argv, h1, h2⟩, cmd, words, h3, h4, h6⟩
    obtain ⟨⟨argv', g1, g2⟩, cmd', words', g3, g4, g5⟩ := C115_each _ h h5
    rw [h1] at g1
    rw [h3] at g3
    simp only [Py.Started.popen.injEq] at g1
    simp only [Node.NRes.ok.injEq] at g3
    subst g1 g3
    rw [h4] at g4
    obtain rfl : words = words' := by simpa using g4
    have k1 := (h2 false (fun _ => none)).unique (g2 false (fun _ => none))
    have k2 := (h6 false (fun _ => none)).unique (g5 false (fun _ => none))
    simp only [MainOut.runs.injEq] at k1 k2
    have hw : q.wanted = (nodeRequest q).wanted := by rw [k1, k2]
    refine ⟨fun hn => ?_, fun hn => ?_, fun hn => ?_, fun hn => ?_⟩
    · have := congrArg Config.maxStack hw
      revert this
      simp [Node.Request.wanted, Python.Request.wanted, nodeRequest, Python.orDefault, hn]
    · have := congrArg Config.memoryLimitCheckOnly hw
      revert this
      simp [Node.Request.wanted, Python.Request.wanted, nodeRequest, Python.orDefault, hn]
    · have := congrArg Config.uid hw
      revert this
      simp [Node.Request.wanted, Python.Request.wanted, nodeRequest, Python.orDefault, hn]
      decide
    · have := congrArg Config.gid hw
      revert this
      simp [Node.Request.wanted, Python.Request.wanted, nodeRequest, Python.orDefault, hn]
      decide
  · exact fun ⟨n1, n2, n3, n4⟩ => ⟨_, C115_same_partial q h n1 n2 n3 n4 h5⟩

/-- Both sides. -/
example : (∃ c, BothRun (twoFaced 1048576 1000) c) ∧ ¬∃ c, BothRun (twoFaced (-1) 1000) c :=
  ⟨(C115_exact _ (twoFaced_common _ _ (by decide) (by decide)) (by decide)).2 (by decide),
    fun h => absurd ((C115_exact _ (twoFaced_common _ _ (by decide) (by decide)) (by decide)).1 h) (by decide)⟩

/-- A common request. -/
example : ∃ c, BothRun (twoFaced 1048576 1000) c :=
  ⟨_, C115_same_partial _ (twoFaced_common _ _ (by decide) (by decide)) (by decide) (by decide) (by decide) (by decide) (by decide)⟩

end Judger
