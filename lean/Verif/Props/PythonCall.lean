import Verif.Lemmas.JsonUnique
import Verif.Props.Python
import Verif.Props.Report

/-!
# C81, C82: a Python call from its arguments to its end
-/

set_option autoImplicit false

namespace Judger

open Judger.Spec Judger.Spec.Cli Judger.Spec.Python Judger.Py Judger.Report

/-- How a call can end.  `prior` and `e` are the previous contents of the judger's result and the outcomes of `run()`'s system calls;
`early` is what the child and the program write to the judger's stdout (the program's stdout if `output_path` names it, such as
"/dev/stdout") before the result is printed, `extra` what else arrives on the judger's stderr. -/
inductive CallEnds (posix : Bool) (junk : Cells) (prior : Result) (e : RunEnv) (early extra : CStr) (call : Var → PyVal) :
    Py.Finished → Prop
  /-- no process is started -/
  | refused (msg : CStr) : start call = .valueError msg → CallEnds posix junk prior e early extra call (.valueError msg)
  | help (argv : List CStr) (text : CStr) : start call = .popen argv → MainDoes posix junk argv .help → helpText = some text →
      CallEnds posix junk prior e early extra call (finish text [])
  | version (argv : List CStr) : start call = .popen argv → MainDoes posix junk argv .version →
      CallEnds posix junk prior e early extra call (finish versionText [])
  /-- the judger does not like its command line -/
  | told (argv : List CStr) (recs : List ErrRec) (text : CStr) : start call = .popen argv → WordsOk argv → MainDoes posix junk argv (.errors recs) →
      reportText recs = some text → CallEnds posix junk prior e early extra call (finish text [])
  | ran (argv : List CStr) (c : Config) (r : Result) (effs : List Eff) : start call = .popen argv → MainDoes posix junk argv (.runs c) →
      run c prior e = .returned r effs → CallEnds posix junk prior e early extra call (finish (early ++ resultText r) (stderrText effs ++ extra))

/-! ## The words of any call -/

def strsOf : PyVal → List CStr
  | .list xs => xs.filterMap fun | .str s => some s | _ => none
  | _ => []

def strOf : PyVal → CStr
  | .str s => s
  | _ => []

theorem strsOf_list (ss : List CStr) : strsOf (.list (ss.map .str)) = ss := by
  induction ss with
  | nil => rfl
  | cons s ss ih =>
    simp only [strsOf, List.map_cons, List.filterMap_cons] at ih ⊢
    rw [ih]

/-- The entry of an integer parameter, which may be a bool. -/
def anyEntry (o : Opt) : PyVal → List Entry
  | .int n => intEntry o n
  | .bool b => [⟨o.name, o, if b then c!"True" else c!"False"⟩]
  | _ => []

def ruleEntry : PyVal → List Entry
  | .str s => if s ≠ [] then [⟨c!"seccomp_rule", .seccompRuleName, s⟩] else []
  | _ => []

/-- The words a well-typed call is turned into. -/
def callEntries (call : Var → PyVal) : List Entry :=
  ((strsOf (call .args)).map fun s => ⟨c!"args", .args, s⟩) ++ (((strsOf (call .env)).map fun s => ⟨c!"env", .env, s⟩) ++
  (anyEntry .maxCpuTime (call .maxCpuTime) ++ (anyEntry .maxRealTime (call .maxRealTime) ++ (anyEntry .maxMemory (call .maxMemory) ++
  (anyEntry .maxStack (call .maxStack) ++ (anyEntry .maxOutputSize (call .maxOutputSize) ++
  (anyEntry .maxProcessNumber (call .maxProcessNumber) ++
  (anyEntry .uid (call .uid) ++ (anyEntry .gid (call .gid) ++ (anyEntry .memoryLimitCheckOnly (call .memoryLimitCheckOnly) ++
  ([⟨c!"exe_path", .exePath, strOf (call .exePath)⟩] ++ ([⟨c!"input_path", .inputPath, strOf (call .inputPath)⟩] ++
  ([⟨c!"output_path", .outputPath, strOf (call .outputPath)⟩] ++ ([⟨c!"error_path", .errorPath, strOf (call .errorPath)⟩] ++
  ([⟨c!"log_path", .logPath, strOf (call .logPath)⟩] ++ ruleEntry (call .seccompRuleName))))))))))))))))

theorem intWords_any (v : Var) (o : Opt) (x : PyVal) (h : v.name = o.name) (hx : (∃ n, x = .int n) ∨ ∃ b, x = .bool b) :
    intWords v x = .ok ((anyEntry o x).map Entry.word) := by
  rcases hx with ⟨n, rfl⟩ | ⟨b, rfl⟩
  · exact intWords_int v o n h
  · simp [intWords, anyEntry, word, Entry.word, h]

theorem procArgs_call (call : Var → PyVal) (h : ∀ v, ¬WrongType v (call v)) : procArgs call = .ok ((callEntries call).map Entry.word) := by
  have ty : ∀ v, ¬WrongType v (call v) := h
  have ha := ty .args
  have he := ty .env
  have h1 := ty .maxCpuTime
  have h2 := ty .maxRealTime
  have h3 := ty .maxMemory
  have h4 := ty .maxStack
  have h5 := ty .maxOutputSize
  have h6 := ty .maxProcessNumber
  have h7 := ty .uid
  have h8 := ty .gid
  have h9 := ty .memoryLimitCheckOnly
  have s1 := ty .exePath
  have s2 := ty .inputPath
  have s3 := ty .outputPath
  have s4 := ty .errorPath
  have s5 := ty .logPath
  have hr := ty .seccompRuleName
  simp only [WrongType, Classical.not_not] at ha he h1 h2 h3 h4 h5 h6 h7 h8 h9 s1 s2 s3 s4 s5 hr
  obtain ⟨as, ha⟩ := ha
  obtain ⟨es, he⟩ := he
  obtain ⟨t1, s1⟩ := s1
  obtain ⟨t2, s2⟩ := s2
  obtain ⟨t3, s3⟩ := s3
  obtain ⟨t4, s4⟩ := s4
  obtain ⟨t5, s5⟩ := s5
  have hl : forVars listWords call strListVars = .ok (as.map (word c!"args") ++ es.map (word c!"env")) := by
    simp only [strListVars, forVars, ha, he, listWords, itemWords_strs, List.append_nil]
    rfl
  have hs : seccompWords (call .seccompRuleName) = .ok ((ruleEntry (call .seccompRuleName)).map Entry.word) := by
    rcases hr with ⟨s, hr⟩ | hr
    · rw [hr]
      simp only [seccompWords, ruleEntry]
      split <;> rfl
    · rw [hr]; rfl
  have hmap : ∀ (nm : CStr) (o : Opt) (ss : List CStr), (ss.map fun s => (⟨nm, o, s⟩ : Entry)).map Entry.word = ss.map (word nm) := by
    intro nm o ss
    rw [List.map_map]; rfl
  simp only [procArgs, hl, intVars, strVars, forVars, s1, s2, s3, s4, s5, strWords, hs,
    intWords_any .maxCpuTime .maxCpuTime _ rfl h1, intWords_any .maxRealTime .maxRealTime _ rfl h2, intWords_any .maxMemory .maxMemory _ rfl h3,
    intWords_any .maxStack .maxStack _ rfl h4, intWords_any .maxOutputSize .maxOutputSize _ rfl h5,
    intWords_any .maxProcessNumber .maxProcessNumber _ rfl h6, intWords_any .uid .uid _ rfl h7, intWords_any .gid .gid _ rfl h8,
    intWords_any .memoryLimitCheckOnly .memoryLimitCheckOnly _ rfl h9]
  simp only [callEntries, ha, he, s1, s2, s3, s4, s5, strsOf_list, strOf, List.map_append, hmap, List.append_assoc, List.append_nil,
    List.map_cons, List.map_nil]
  rfl

theorem callEntries_request (q : Request) : callEntries q.call = reqEntries q := by
  simp only [callEntries, reqEntries, Request.call, strsOf_list, anyEntry, strOf]
  cases q.seccompRuleName <;> rfl

theorem anyEntry_good (o : Opt) (ho : o.takes ≠ .nothing) (x : PyVal) : ∀ e ∈ anyEntry o x, e.Good := by
  intro e he
  cases x with
  | int n => rw [mem_intEntry he]; exact ⟨calls_full o, ho⟩
  | bool b =>
    simp only [anyEntry, List.mem_singleton] at he
    subst he
    exact ⟨calls_full o, ho⟩
  | _ => simp [anyEntry] at he

theorem callEntries_good (call : Var → PyVal) : ∀ e ∈ callEntries call, e.Good := by
  intro e he
  simp only [callEntries, List.mem_append, List.mem_map, List.mem_singleton] at he
  rcases he with ⟨s, _, rfl⟩ | ⟨s, _, rfl⟩ | he | he | he | he | he | he | he | he | he | rfl | rfl | rfl | rfl | rfl | he
  · exact ⟨calls_full .args, nofun⟩
  · exact ⟨calls_full .env, nofun⟩
  · exact anyEntry_good _ (by decide) _ e he
  · exact anyEntry_good _ (by decide) _ e he
  · exact anyEntry_good _ (by decide) _ e he
  · exact anyEntry_good _ (by decide) _ e he
  · exact anyEntry_good _ (by decide) _ e he
  · exact anyEntry_good _ (by decide) _ e he
  · exact anyEntry_good _ (by decide) _ e he
  · exact anyEntry_good _ (by decide) _ e he
  · exact anyEntry_good _ (by decide) _ e he
  · exact ⟨calls_full .exePath, nofun⟩
  · exact ⟨calls_full .inputPath, nofun⟩
  · exact ⟨calls_full .outputPath, nofun⟩
  · exact ⟨calls_full .errorPath, nofun⟩
  · exact ⟨calls_full .logPath, nofun⟩
  · unfold ruleEntry at he
    split at he
    · split at he
      · simp only [List.mem_singleton] at he
        subst he
        exact ⟨calls_seccomp_rule, nofun⟩
      · cases he
    · cases he

/-- The words of a call that starts a process. -/
theorem start_popen {call : Var → PyVal} {argv : List CStr} (h : start call = .popen argv) :
    (∀ v, ¬WrongType v (call v)) ∧ argv = judgerPath :: (callEntries call).map Entry.word ∧
      ∀ w ∈ (callEntries call).map Entry.word, '\x00' ∉ w := by
  have ty : ∀ v, ¬WrongType v (call v) := by
    intro v hv
    obtain ⟨m, hm⟩ := C60_wrong_type call v hv
    rw [hm] at h
    cases h
  unfold start at h
  rw [procArgs_call call ty] at h
  simp only at h
  split at h
  · cases h
  · rename_i hn
    simp only [Started.popen.injEq] at h
    refine ⟨ty, h.symm, ?_⟩
    intro w hw hc
    exact hn (List.any_eq_true.2 ⟨w, hw, by simpa using hc⟩)

theorem notLoose {t : CStr} (h : scanIntText t = .error .badint) (k : Int) : ¬LooseIntText t k := by
  intro hk
  have h1 := scanIntText_loose hk
  rw [h, inRange] at h1
  split at h1 <;> simp at h1

theorem any_int {o : Opt} {x : PyVal} (hx : (∃ n, x = .int n) ∨ ∃ b, x = .bool b)
    (hi : ∀ e ∈ anyEntry o x, ∃ n, LooseIntText e.val n ∧ IsInt n) : ∃ n, x = .int n ∧ IsInt n := by
  rcases hx with ⟨n, rfl⟩ | ⟨b, rfl⟩
  · refine ⟨n, rfl, ?_⟩
    by_cases hn : n = -1
    · rw [hn]; decide
    · obtain ⟨m, h1, h2⟩ := hi ⟨o.name, o, showInt n⟩ (by simp [anyEntry, intEntry, hn])
      rw [loose_unique h1 h2 (Or.inl (intText_showInt n))]
      exact h2
  · obtain ⟨m, h1, _⟩ := hi _ (List.mem_singleton.2 rfl)
    cases b
    · exact absurd h1 (notLoose (t := c!"False") (by decide +kernel) m)
    · exact absurd h1 (notLoose (t := c!"True") (by decide +kernel) m)

/-- A call that reaches `run()` is an acceptable request. -/
theorem call_runs {posix : Bool} {junk : Cells} {call : Var → PyVal} {argv : List CStr} {c : Config} (h : start call = .popen argv)
    (hd : MainDoes posix junk argv (.runs c)) : ∃ q : Request, q.Ok ∧ call = q.call := by
  obtain ⟨ty, rfl, hnul⟩ := start_popen h
  obtain ⟨hf, _, _, _⟩ := runs_inv (scan_entries posix _ (callEntries_good call)) hd
  have hint : ∀ e ∈ callEntries call, e.opt.takes = .int → ∃ n, LooseIntText e.val n ∧ IsInt n := fun e he ht =>
    hf.ints e.opt e.val (List.mem_map.2 ⟨e, he, rfl⟩) ht
  have hfill : ∀ e ∈ callEntries call, e.val ≠ [] := fun e he => hf.filled e.opt e.val (List.mem_map.2 ⟨e, he, rfl⟩)
  have hno : ∀ e ∈ callEntries call, '\x00' ∉ e.val := by
    intro e he hc
    refine hnul e.word (List.mem_map.2 ⟨e, he, rfl⟩) ?_
    simp [Entry.word, hc]
  have key : ∀ (v : Var) (o : Opt), o.takes = .int → ((∃ n, call v = .int n) ∨ ∃ b, call v = .bool b) →
      (∀ e ∈ anyEntry o (call v), e ∈ callEntries call) → ∃ n, call v = .int n ∧ IsInt n := by
    intro v o ho hx hm
    refine any_int hx fun e he => hint e (hm e he) ?_
    rcases hx with ⟨n, hx⟩ | ⟨b, hx⟩
    · rw [hx] at he; rw [mem_intEntry he]; exact ho
    · rw [hx] at he
      simp only [anyEntry, List.mem_singleton] at he
      rw [he]; exact ho
  have get : ∀ v, ¬WrongType v (call v) := ty
  have ha := get .args
  have he := get .env
  have h1 := get .maxCpuTime
  have h2 := get .maxRealTime
  have h3 := get .maxMemory
  have h4 := get .maxStack
  have h5 := get .maxOutputSize
  have h6 := get .maxProcessNumber
  have h7 := get .uid
  have h8 := get .gid
  have h9 := get .memoryLimitCheckOnly
  have s1 := get .exePath
  have s2 := get .inputPath
  have s3 := get .outputPath
  have s4 := get .errorPath
  have s5 := get .logPath
  have hr := get .seccompRuleName
  simp only [WrongType, Classical.not_not] at ha he h1 h2 h3 h4 h5 h6 h7 h8 h9 s1 s2 s3 s4 s5 hr
  obtain ⟨as, ha⟩ := ha
  obtain ⟨es, he⟩ := he
  obtain ⟨t1, s1⟩ := s1
  obtain ⟨t2, s2⟩ := s2
  obtain ⟨t3, s3⟩ := s3
  obtain ⟨t4, s4⟩ := s4
  obtain ⟨t5, s5⟩ := s5
  obtain ⟨n1, k1, i1⟩ := key .maxCpuTime .maxCpuTime rfl h1 (by intro e hm; simp [callEntries, hm])
  obtain ⟨n2, k2, i2⟩ := key .maxRealTime .maxRealTime rfl h2 (by intro e hm; simp [callEntries, hm])
  obtain ⟨n3, k3, i3⟩ := key .maxMemory .maxMemory rfl h3 (by intro e hm; simp [callEntries, hm])
  obtain ⟨n4, k4, i4⟩ := key .maxStack .maxStack rfl h4 (by intro e hm; simp [callEntries, hm])
  obtain ⟨n5, k5, i5⟩ := key .maxOutputSize .maxOutputSize rfl h5 (by intro e hm; simp [callEntries, hm])
  obtain ⟨n6, k6, i6⟩ := key .maxProcessNumber .maxProcessNumber rfl h6 (by intro e hm; simp [callEntries, hm])
  obtain ⟨n7, k7, i7⟩ := key .uid .uid rfl h7 (by intro e hm; simp [callEntries, hm])
  obtain ⟨n8, k8, i8⟩ := key .gid .gid rfl h8 (by intro e hm; simp [callEntries, hm])
  obtain ⟨n9, k9, i9⟩ := key .memoryLimitCheckOnly .memoryLimitCheckOnly rfl h9 (by intro e hm; simp [callEntries, hm])
  obtain ⟨rule, hrule⟩ : ∃ rule : Option CStr, call .seccompRuleName = rule.elim .none .str := by
    rcases hr with ⟨s, hr⟩ | hr
    · exact ⟨some s, hr⟩
    · exact ⟨none, hr⟩
  let q : Request := ⟨n1, n2, n3, n4, n5, n6, t1, t2, t3, t4, as, es, t5, rule, n7, n8, n9⟩
  have hq : call = q.call := by
    funext v
    cases v <;> simp only [Request.call, q, ha, he, k1, k2, k3, k4, k5, k6, k7, k8, k9, s1, s2, s3, s4, s5, hrule]
  have hreq : callEntries call = reqEntries q := by rw [hq, callEntries_request]
  refine ⟨q, ⟨?_, ?_, ?_, ?_, ?_⟩, hq⟩
  · intro n hn
    simp only [q, List.mem_cons, List.not_mem_nil, or_false] at hn
    rcases hn with rfl | rfl | rfl | rfl | rfl | rfl | rfl | rfl | rfl <;> assumption
  · intro s hs
    rw [hreq] at hfill
    simp only [List.mem_append, List.mem_cons, List.not_mem_nil, or_false] at hs
    rcases hs with ((rfl | rfl | rfl | rfl | rfl) | hs) | hs
    · exact hfill ⟨c!"exe_path", .exePath, _⟩ (by simp [reqEntries, q])
    · exact hfill ⟨c!"input_path", .inputPath, _⟩ (by simp [reqEntries, q])
    · exact hfill ⟨c!"output_path", .outputPath, _⟩ (by simp [reqEntries, q])
    · exact hfill ⟨c!"error_path", .errorPath, _⟩ (by simp [reqEntries, q])
    · exact hfill ⟨c!"log_path", .logPath, _⟩ (by simp [reqEntries, q])
    · exact hfill ⟨c!"args", .args, s⟩ (by simp [reqEntries, hs])
    · exact hfill ⟨c!"env", .env, s⟩ (by simp [reqEntries, hs])
  · intro s hs
    rw [hreq] at hno
    simp only [List.mem_append, List.mem_cons, List.not_mem_nil, or_false] at hs
    rcases hs with (((rfl | rfl | rfl | rfl | rfl) | hs) | hs) | hs
    · exact hno ⟨c!"exe_path", .exePath, _⟩ (by simp [reqEntries, q])
    · exact hno ⟨c!"input_path", .inputPath, _⟩ (by simp [reqEntries, q])
    · exact hno ⟨c!"output_path", .outputPath, _⟩ (by simp [reqEntries, q])
    · exact hno ⟨c!"error_path", .errorPath, _⟩ (by simp [reqEntries, q])
    · exact hno ⟨c!"log_path", .logPath, _⟩ (by simp [reqEntries, q])
    · exact hno ⟨c!"args", .args, s⟩ (by simp [reqEntries, hs])
    · exact hno ⟨c!"env", .env, s⟩ (by simp [reqEntries, hs])
    · cases hrl : rule with
      | none => simp [q, hrl] at hs
      | some s' =>
        simp only [q, hrl, Option.toList, List.mem_singleton] at hs
        subst hs
        by_cases hne : s = []
        · rw [hne]; simp
        · exact hno ⟨c!"seccomp_rule", .seccompRuleName, s⟩ (by simp [reqEntries, q, hrl, hne])
  · have := hf.often .args
    rw [times_entries, hreq, vals_reqEntries] at this
    exact this
  · have := hf.often .env
    rw [times_entries, hreq, vals_reqEntries] at this
    exact this

/-! ## Texts that are no JSON -/

theorem report_not_json {recs : List ErrRec} {posix : Bool} {junk : Cells} {a : CStr} {ws : List CStr} {text : CStr}
    (hw : WordsOk ws) (h : MainDoes posix junk (a :: ws) (.errors recs)) (ht : reportText recs = some text) :
    ∃ msg, finish text [] = .valueError msg := by
  obtain ⟨ms, hm⟩ := main_wrongs h
  have hr := errors_rows h hm
  rw [hr, reportText_rows (wrongs_plain hm hw), Option.some.injEq] at ht
  have hne : ms ≠ [] := by
    rintro rfl
    obtain ⟨is, _, hd⟩ := main_scan h
    cases hd with
    | errors _ _ _ _ h4 => exact h4 hr
  have hline : ∀ m : Mistake, ∃ r, lineOf m = 'l' :: r := by
    intro m
    cases m <;> exact ⟨_, rfl⟩
  obtain ⟨r, hr⟩ : ∃ r, text = 'l' :: r := by
    rw [← ht]
    cases ms with
    | nil => exact absurd rfl hne
    | cons m ms =>
      obtain ⟨r, hr⟩ := hline m
      unfold printedLines
      split
      · exact ⟨_, by rw [List.map_cons, hr]; rfl⟩
      · exact ⟨_, by rw [List.take_succ_cons, List.map_cons, hr]; rfl⟩
  subst hr
  simp only [finish, ne_eq, not_true_eq_false, if_false]
  rw [JsonText.parse_none (by decide)]
  split <;> exact ⟨_, rfl⟩

theorem run_returns (c : Config) (prior : Result) (e : RunEnv) (h : e.fork ≠ .child) : ∃ r effs, run c prior e = .returned r effs := by
  unfold run errorExit
  simp only
  split
  · exact ⟨_, _, rfl⟩
  · split
    · exact ⟨_, _, rfl⟩
    · split
      · exact ⟨_, _, rfl⟩
      · rename_i hf; exact absurd hf h
      · unfold runParent errorExit
        simp only
        split
        · exact ⟨_, _, rfl⟩
        · split <;> exact ⟨_, _, rfl⟩

theorem stderrText_append (a b : List Eff) : stderrText (a ++ b) = stderrText a ++ stderrText b := by
  induction a with
  | nil => rfl
  | cons x a ih => cases x <;> simp [stderrText, ih]

/-- With a working log `run()` writes nothing to stderr. -/
theorem run_quiet {c : Config} {prior r : Result} {e : RunEnv} {effs : List Eff}
    (hl : e.logOpens = true) (hk : e.logLocks = true) (hw : e.logWrites = true)
    (h : run c prior e = .returned r effs) : stderrText effs = [] := by
  have herr : ∀ (r' : Result) (effs' : List Eff) (code : Int) (name : CStr), stderrText effs' = [] →
      errorExit e r' effs' code name = .returned r effs → stderrText effs = [] := by
    intro r' effs' code name h1 h2
    simp only [errorExit, RunOut.returned.injEq, logWriteEff, logCloseEff, hl, hk, hw, if_true] at h2
    rw [← h2.2]
    simp [stderrText_append, h1, stderrText]
  unfold run at h
  simp only [logOpenEff, hl, if_true] at h
  split at h
  · exact herr _ _ _ _ rfl h
  · split at h
    · exact herr _ _ _ _ rfl h
    · split at h
      · exact herr _ _ _ _ rfl h
      · cases h
      · unfold runParent at h
        simp only at h
        split at h
        · exact herr _ _ _ _ rfl h
        · split at h
          · refine herr _ _ _ _ ?_ h
            split <;> rfl
          · simp only [RunOut.returned.injEq, logCloseEff, hl, if_true] at h
            rw [← h.2]
            split <;> rfl

/-- Only blanks can stand before the result. -/
theorem result_after (lax : Bool) (early : CStr) (r : Result) (v : JsonText.Value) :
    JsonText.Denotes lax (early ++ resultText r) v ↔ (∀ c ∈ early, c ∈ c!" \t\n\r") ∧ v = .ofInts (sevenMembers r) := by
  rw [resultText_lines]
  exact JsonText.denotes_after (by simp [sevenMembers]) (seven_names r) early v

theorem blanks_ascii {s : CStr} (h : ∀ c ∈ s, c ∈ c!" \t\n\r") : ∀ c ∈ s, c.toNat < 0x80 := fun c hc =>
  (by decide : ∀ d ∈ c!" \t\n\r", d.toNat < 0x80) c (h c hc)

theorem after_utf8 {early : CStr} (h : ∀ c ∈ early, c ∈ c!" \t\n\r") (r : Result) : Utf8 (early ++ resultText r) :=
  utf8_append (utf8_ascii (blanks_ascii h)) (utf8_ascii (result_ascii r))

/-- A call returns what the printed bytes denote: exactly if nothing is on stderr, and the bytes are UTF-8 and JSON. -/
theorem finish_value {out err : CStr} {v : JsonText.Value} : finish out err = .value v ↔
    err = [] ∧ Utf8 out ∧ JsonText.Denotes true out v := by
  unfold finish
  by_cases he : err = []
  · rw [if_neg (by simpa using he), ← JsonText.parse_iff, ← decodes_iff]
    cases decodes out <;> cases JsonText.parse true out <;> simp [he]
  · rw [if_pos he]
    simp [he]

/-! ## C81 -/

/-- C81: every call comes to an end, whatever its arguments, once the words can be passed to a process. -/
theorem C81_ends (posix : Bool) (junk : Cells) (prior : Result) (e : RunEnv) (early extra : CStr) (call : Var → PyVal) (he : e.fork ≠ .child)
    (hw : ∀ argv, start call = .popen argv → WordsOk argv) : ∃ fin, CallEnds posix junk prior e early extra call fin := by
  cases hs : start call with
  | valueError m => exact ⟨_, .refused m hs⟩
  | popen argv =>
    obtain ⟨_, rfl, _⟩ := start_popen hs
    obtain ⟨out, h1, h2⟩ := main_exists (junk := junk) (a := judgerPath) (scan_entries posix _ (callEntries_good call))
    cases h2 with
    | help => exact ⟨_, .help _ _ hs h1 C80_help⟩
    | version => exact ⟨_, .version _ hs h1⟩
    | errors recs =>
      obtain ⟨T, hT⟩ := C78_report_safe posix junk _ (hw _ hs) recs h1
      exact ⟨_, .told _ recs T hs (hw _ hs) h1 hT⟩
    | runs c =>
      obtain ⟨r, effs, hr⟩ := run_returns c prior e he
      exact ⟨_, .ran _ c r effs hs h1 hr⟩

/-- C81: if a dict is returned, the call was an acceptable request, `run()` has been called for it (C59 says with which configuration), and the
dict holds what `run()` stored.  Everything else raises `ValueError`. -/
theorem C81_dict (posix : Bool) (junk : Cells) (prior : Result) (e : RunEnv) (early extra : CStr) (call : Var → PyVal) (v : JsonText.Value)
    (h : CallEnds posix junk prior e early extra call (.value v)) :
    ∃ (q : Request) (r : Result) (effs : List Eff), q.Ok ∧ call = q.call ∧
      run { q.wanted with args := q.exePath :: (q.args ++ if q.args.length = 255 then q.env else []) } prior e = .returned r effs ∧
      v = .ofInts (sevenMembers r) := by
  generalize hfin : Py.Finished.value v = fin at h
  cases h with
  | refused msg _ => cases hfin
  | help argv text hs hd _ =>
    obtain ⟨_, rfl, _⟩ := start_popen hs
    have := main_decides (scan_entries posix _ (callEntries_good call)) hd
    cases this with
    | help hh => rw [entries_noFlag (callEntries_good call) rfl] at hh; omega
  | version argv hs hd =>
    obtain ⟨_, rfl, _⟩ := start_popen hs
    have := main_decides (scan_entries posix _ (callEntries_good call)) hd
    cases this with
    | version _ hh => rw [entries_noFlag (callEntries_good call) rfl] at hh; omega
  | told argv recs text hs hw hd ht =>
    obtain ⟨_, rfl, _⟩ := start_popen hs
    obtain ⟨m, hm⟩ := report_not_json (fun w hx => hw w (List.mem_cons_of_mem _ hx)) hd ht
    rw [hm] at hfin
    cases hfin
  | ran argv c r effs hs hd hr =>
    obtain ⟨q, hq, rfl⟩ := call_runs hs hd
    obtain ⟨argv', h1, h2⟩ := C59_exact q hq
    rw [hs, Started.popen.injEq] at h1
    subst h1
    have hc := (h2 posix junk).unique hd
    simp only [MainOut.runs.injEq] at hc
    subst hc
    refine ⟨q, r, effs, hq, rfl, hr, ?_⟩
    exact ((result_after true early r v).1 (finish_value.1 hfin.symm).2.2).2

/-- C81: exactly the acceptable requests get as far as `run()`. -/
theorem C81_reaches_run (posix : Bool) (junk : Cells) (call : Var → PyVal) :
    (∃ argv c, start call = .popen argv ∧ MainDoes posix junk argv (.runs c)) ↔ ∃ q : Request, q.Ok ∧ call = q.call := by
  constructor
  · rintro ⟨argv, c, h1, h2⟩
    exact call_runs h1 h2
  · rintro ⟨q, hq, rfl⟩
    obtain ⟨argv, h1, h2⟩ := C59_exact q hq
    exact ⟨argv, _, h1, h2 posix junk⟩

/-- C81: the program that is started is the installed judger. -/
theorem C81_program (call : Var → PyVal) (argv : List CStr) (h : start call = .popen argv) :
    argv.head? = some c!"/usr/lib/judger/libjudger.so" := by
  obtain ⟨_, rfl, _⟩ := start_popen h
  rfl

/-- `memory_limit_check_only=True` is no acceptable request: the call raises `ValueError`. -/
example (posix : Bool) (junk : Cells) (prior : Result) (e : RunEnv) (v : JsonText.Value) (q : Request) :
    ¬CallEnds posix junk prior e [] [] (fun v => if v = .memoryLimitCheckOnly then .bool true else q.call v) (.value v) := by
  intro h
  obtain ⟨q', _, _, _, h1, _, _⟩ := C81_dict _ _ _ _ _ _ _ _ h
  have := congrFun h1 .memoryLimitCheckOnly
  simp [Request.call] at this

/-- An acceptable request whose dict is returned. -/
example (posix : Bool) (junk : Cells) : ∃ v, CallEnds posix junk ⟨0, 0, 0, 0, 0, 0, 0⟩ (sampleEnv 0) [] []
    (sampleRequest [c!"hello world"] []).call (.value v) := by
  obtain ⟨argv, h1, h2⟩ := C59_exact (sampleRequest [c!"hello world"] []) (sampleRequest_ok _ _ (by decide) (by decide) (by decide))
  obtain ⟨r, effs, hr⟩ := run_returns _ ⟨0, 0, 0, 0, 0, 0, 0⟩ (sampleEnv 0) (by decide)
  have h := CallEnds.ran (early := []) (extra := []) argv _ r effs h1 (h2 posix junk) hr
  rw [run_quiet rfl rfl rfl hr, List.append_nil, List.nil_append, C61_returns_result] at h
  exact ⟨_, h⟩

/-! ## C82 -/

/-- C82, the full claim: a call that raises `ValueError` has run nothing. -/
def C82_full : Prop :=
  ∀ (posix : Bool) (junk : Cells) (prior : Result) (e : RunEnv) (early extra : CStr) (call : Var → PyVal) (msg : CStr),
    CallEnds posix junk prior e early extra call (.valueError msg) →
    ∀ (argv : List CStr) (c : Config) (r : Result) (effs : List Eff), start call = .popen argv → MainDoes posix junk argv (.runs c) →
      run c prior e = .returned r effs → Eff.forked ∉ effs

/-- C82, the part that holds: so it is if the log file can be opened, locked and written, the child writes nothing to the judger's stderr, and the program
nothing but blanks to its stdout; then a call that raises does not even get to `run()`.  Missing: a log that cannot be opened (`C82_false`),
locked or written, setup messages of the child, and output of a program whose `output_path` is the judger's stdout. -/
theorem C82_nothing_run_partial (posix : Bool) (junk : Cells) (prior : Result) (e : RunEnv) (early : CStr) (call : Var → PyVal) (msg : CStr)
    (hl : e.logOpens = true) (hk : e.logLocks = true) (hw : e.logWrites = true) (hb : ∀ c ∈ early, c ∈ c!" \t\n\r") (h : CallEnds posix junk prior e early [] call (.valueError msg)) (argv : List CStr) (c : Config)
    (hs : start call = .popen argv) : ¬MainDoes posix junk argv (.runs c) := by
  intro hd
  generalize hfin : Py.Finished.valueError msg = fin at h
  cases h with
  | refused _ h => rw [h] at hs; cases hs
  | help argv' text hs' hd' _ =>
    rw [hs', Started.popen.injEq] at hs
    subst hs
    exact nomatch hd.unique hd'
  | version argv' hs' hd' =>
    rw [hs', Started.popen.injEq] at hs
    subst hs
    exact nomatch hd.unique hd'
  | told argv' recs text hs' _ hd' _ =>
    rw [hs', Started.popen.injEq] at hs
    subst hs
    exact nomatch hd.unique hd'
  | ran argv' c' r' effs' _ _ hr' =>
    rw [run_quiet hl hk hw hr', List.append_nil, finish_value.2 ⟨rfl, after_utf8 hb r', (result_after true early r' _).2 ⟨hb, rfl⟩⟩] at hfin
    cases hfin

/-- C82, what the exception says: a call that raises although `run()` has returned carries all that the judger and the
child wrote to stderr, as Python shows bytes (`C82_text_whole`: nothing is lost). -/
theorem C82_text (posix : Bool) (junk : Cells) (prior : Result) (e : RunEnv) (early extra : CStr) (call : Var → PyVal) (argv : List CStr)
    (c : Config) (r : Result) (effs : List Eff) (h1 : start call = .popen argv) (h2 : MainDoes posix junk argv (.runs c))
    (h3 : run c prior e = .returned r effs) (hx : stderrText effs ++ extra ≠ []) :
    CallEnds posix junk prior e early extra call
      (.valueError (c!"Error occurred while calling judger: " ++ reprBytes (stderrText effs ++ extra))) := by
  have h := CallEnds.ran (early := early) (extra := extra) argv c r effs h1 h2 h3
  unfold finish at h
  rw [if_pos hx] at h
  exact h

/-- C82, exactly which calls raise after `run()` has returned: those in which anything arrives on stderr, or anything but blanks before the result. -/
theorem C82_exact (posix : Bool) (junk : Cells) (prior : Result) (e : RunEnv) (early extra : CStr) (call : Var → PyVal) (argv : List CStr)
    (c : Config) (r : Result) (effs : List Eff) (h1 : start call = .popen argv) (h2 : MainDoes posix junk argv (.runs c))
    (h3 : run c prior e = .returned r effs) :
    (∃ msg, CallEnds posix junk prior e early extra call (.valueError msg)) ↔
      stderrText effs ≠ [] ∨ extra ≠ [] ∨ ∃ x ∈ early, x ∉ c!" \t\n\r" := by
  have hends : ∀ fin, CallEnds posix junk prior e early extra call fin → fin = finish (early ++ resultText r) (stderrText effs ++ extra) := by
    intro fin h
    cases h with
    | refused _ h => rw [h] at h1; cases h1
    | help argv' text hs' hd' _ =>
      rw [hs', Started.popen.injEq] at h1
      subst h1
      exact nomatch h2.unique hd'
    | version argv' hs' hd' =>
      rw [hs', Started.popen.injEq] at h1
      subst h1
      exact nomatch h2.unique hd'
    | told argv' recs text hs' _ hd' _ =>
      rw [hs', Started.popen.injEq] at h1
      subst h1
      exact nomatch h2.unique hd'
    | ran argv' c' r' effs' hs' hd' hr' =>
      rw [hs', Started.popen.injEq] at h1
      subst h1
      cases h2.unique hd'
      rw [h3, RunOut.returned.injEq] at hr'
      obtain ⟨rfl, rfl⟩ := hr'
      rfl
  have hval : ∀ v, finish (early ++ resultText r) (stderrText effs ++ extra) = .value v →
      stderrText effs = [] ∧ extra = [] ∧ ∀ x ∈ early, x ∈ c!" \t\n\r" := by
    intro v hv
    obtain ⟨h4, _, h5⟩ := finish_value.1 hv
    exact ⟨(List.append_eq_nil_iff.1 h4).1, (List.append_eq_nil_iff.1 h4).2, ((result_after true early r v).1 h5).1⟩
  constructor
  · rintro ⟨msg, h⟩
    refine Classical.byContradiction fun hn => ?_
    simp only [not_or, Classical.not_not, not_exists, not_and] at hn
    have := hends _ h
    rw [hn.1, hn.2.1, List.append_nil,
      finish_value.2 ⟨rfl, after_utf8 hn.2.2 r, (result_after true early r _).2 ⟨hn.2.2, rfl⟩⟩] at this
    cases this
  · intro h
    have hr := CallEnds.ran (early := early) (extra := extra) argv c r effs h1 h2 h3
    cases hf : finish (early ++ resultText r) (stderrText effs ++ extra) with
    | valueError msg => exact ⟨msg, hf ▸ hr⟩
    | value v =>
      obtain ⟨h4, h5, h6⟩ := hval v hf
      rcases h with h | h | ⟨x, hx, hnx⟩
      · exact absurd h4 h
      · exact absurd h5 h
      · exact absurd (h6 x hx) hnx

/-- Bytes. -/
def IsBytes (s : CStr) : Prop := ∀ c ∈ s, c.toNat < 256

def hexValue (c : Char) : Nat := if c.toNat < 58 then c.toNat - 48 else c.toNat - 87

/-- Reads one byte of a `repr`. -/
def unrepr : CStr → Option (Char × CStr)
  | [] => none
  | c :: r =>
    if c ≠ '\\' then some (c, r)
    else match r with
      | [] => none
      | d :: r =>
        if d = 't' then some ('\t', r)
        else if d = 'n' then some ('\n', r)
        else if d = 'r' then some ('\r', r)
        else if d = 'x' then
          match r with
          | a :: b :: r => some (Char.ofNat (16 * hexValue a + hexValue b), r)
          | _ => none
        else some (d, r)

theorem unrepr_byte {q c : Char} (r : CStr) (hq : q = '\'' ∨ q = '"') (hc : c.toNat < 256) : unrepr (reprByte q c ++ r) = some (c, r) := by
  unfold reprByte
  split
  · rename_i h
    rcases h with rfl | rfl
    · rcases hq with rfl | rfl <;> rfl
    · rfl
  · rename_i h
    split
    · subst c; rfl
    · split
      · subst c; rfl
      · split
        · subst c; rfl
        · split
          · have hv : ∀ k : Fin 16, hexValue (hexChar k) = k := by decide
            have h1 := hv ⟨c.toNat / 16, by omega⟩
            have h2 := hv ⟨c.toNat % 16, by omega⟩
            simp only at h1 h2
            have h3 : 16 * (c.toNat / 16) + c.toNat % 16 = c.toNat := by omega
            simp [unrepr, h1, h2, h3]
          · have : c ≠ '\\' := fun e => h (.inr e)
            simp [unrepr, this]

theorem reprByte_head {q c : Char} (hq : q = '\'' ∨ q = '"') (r r' : CStr) : reprByte q c ++ r ≠ q :: r' := by
  have hb : q ≠ '\\' := by rcases hq with rfl | rfl <;> decide
  unfold reprByte
  intro h
  split at h
  · exact hb (List.cons.inj h).1.symm
  · rename_i hn
    split at h
    · exact hb (List.cons.inj h).1.symm
    · split at h
      · exact hb (List.cons.inj h).1.symm
      · split at h
        · exact hb (List.cons.inj h).1.symm
        · split at h
          · exact hb (List.cons.inj h).1.symm
          · exact hn (.inl (List.cons.inj h).1)

theorem reprs_injective {q : Char} (hq : q = '\'' ∨ q = '"') {s s' : CStr} (hs : IsBytes s) (hs' : IsBytes s')
    (h : (s.map (reprByte q)).flatten ++ [q] = (s'.map (reprByte q)).flatten ++ [q]) : s = s' := by
  induction s generalizing s' with
  | nil =>
    cases s' with
    | nil => rfl
    | cons d s' =>
      simp only [List.map_nil, List.flatten_nil, List.nil_append, List.map_cons, List.flatten_cons, List.append_assoc] at h
      exact absurd h.symm (reprByte_head hq _ _)
  | cons c s ih =>
    cases s' with
    | nil =>
      simp only [List.map_nil, List.flatten_nil, List.nil_append, List.map_cons, List.flatten_cons, List.append_assoc] at h
      exact absurd h (reprByte_head hq _ _)
    | cons d s' =>
      simp only [List.map_cons, List.flatten_cons, List.append_assoc] at h
      have h1 := congrArg unrepr h
      rw [unrepr_byte _ hq (hs c (by simp)), unrepr_byte _ hq (hs' d (by simp)), Option.some.injEq, Prod.mk.injEq] at h1
      rw [h1.1, ih (fun x hx => hs x (by simp [hx])) (fun x hx => hs' x (by simp [hx])) h1.2]

/-- C82: different bytes on stderr give different messages. -/
theorem C82_text_whole (s s' : CStr) (hs : IsBytes s) (hs' : IsBytes s') (h : reprBytes s = reprBytes s') : s = s' := by
  unfold reprBytes at h
  simp only [List.cons_append, List.nil_append, List.cons.injEq, true_and] at h
  obtain ⟨hq, h⟩ := h
  rw [hq] at h
  refine reprs_injective ?_ hs hs' h
  split
  · exact .inr rfl
  · exact .inl rfl

example : reprBytes c!"can't open \"a\"\n" = c!"b'can\\'t open \"a\"\\n'" := by decide

/-- C82 is false of the code: when the log cannot be opened, the program is run and judged, and the note about the log makes the call raise. -/
theorem C82_false : ¬C82_full := by
  intro h
  obtain ⟨argv, h1, h2⟩ := C59_configuration_partial (sampleRequest [c!"hello world"] [])
    (sampleRequest_ok _ _ (by decide) (by decide) (by decide)) (Or.inr rfl)
  let e : RunEnv := { sampleEnv 0 with logOpens := false }
  obtain ⟨r, hr⟩ : ∃ r, run (sampleRequest [c!"hello world"] []).wanted ⟨0, 0, 0, 0, 0, 0, 0⟩ e =
      .returned r [.logOpenFailed c!"j.log", .forked, .waited 4242] := ⟨_, rfl⟩
  have hc := CallEnds.ran (early := []) (extra := []) argv _ r _ h1 (h2 false fun _ => none) hr
  have := h false (fun _ => none) ⟨0, 0, 0, 0, 0, 0, 0⟩ e [] [] _ _ hc argv _ r _ h1 (h2 false fun _ => none) hr
  simp at this

/-- A call that raises for another reason: the empty path of the executable. -/
example : ∃ q : Request, ¬q.Ok := ⟨{ sampleRequest [] [] with exePath := [] }, fun h => h.filled [] (by simp) rfl⟩

end Judger
