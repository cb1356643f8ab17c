import Verif.Props.Accepted
import Verif.Props.Family
import Verif.Props.NodeCall

/-!
# C100: a judged program cannot forge the object that a Node call returns; C101: what an accepted object says; C102: nor the dict of a Python call
-/

set_option autoImplicit false

namespace Judger

open Judger.Spec

/-! ## What the binding reads -/

/-- Nothing follows a newline in what one `fgets` reads. -/
theorem fgets_line (n : Nat) (s x y : CStr) (h : (Node.fgets n s).1 = x ++ '\n' :: y) : y = [] := by
  induction n generalizing s x with
  | zero => simp [Node.fgets] at h
  | succ n ih =>
    cases s with
    | nil => simp [Node.fgets] at h
    | cons c s =>
      simp only [Node.fgets] at h
      split at h
      · cases x with
        | nil => simpa using (List.cons.inj h).2.symm
        | cons d x =>
          have := (List.cons.inj h).2
          simp at this
      · rename_i hc
        cases x with
        | nil => exact absurd (List.cons.inj h).1 hc
        | cons d x => exact ih s x (List.cons.inj h).2

/-- Whatever was written before it, a text that follows "{\n" is read whole. -/
theorem readResult_after {rest : CStr} (h0 : '\x00' ∉ rest) (k : Nat) (early : CStr) (hk : (early ++ '{' :: '\n' :: rest).length ≤ k) :
    ∃ E, Node.readResult k (early ++ '{' :: '\n' :: rest) = E ++ rest := by
  induction k generalizing early with
  | zero => simp at hk
  | succ k ih =>
    obtain ⟨c, s, hs⟩ : ∃ c s, early ++ '{' :: '\n' :: rest = c :: s := by
      cases early with
      | nil => exact ⟨_, _, rfl⟩
      | cons c early => exact ⟨_, _, rfl⟩
    have hsplit := fgets_split 254 (c :: s)
    have hlen : (Node.fgets 254 (c :: s)).2.length ≤ s.length := fgets_progress 253 c s
    have hline := fgets_line 254 (c :: s)
    have hread : Node.readResult (k + 1) (c :: s) =
      (Node.fgets 254 (c :: s)).1.takeWhile (· ≠ '\x00') ++ Node.readResult k (Node.fgets 254 (c :: s)).2 := by simp only [Node.readResult]
    rw [hs] at hk ⊢
    rw [hread]
    generalize (Node.fgets 254 (c :: s)).1 = p1 at hsplit hline ⊢
    generalize (Node.fgets 254 (c :: s)).2 = p2 at hsplit hlen ⊢
    rw [← hs] at hsplit
    have hk2 : p2.length ≤ k := by simp at hk; omega
    rcases List.append_eq_append_iff.1 hsplit with ⟨a, h1, h2⟩ | ⟨a, h1, h2⟩
    · rw [h2] at hk2 ⊢
      obtain ⟨E, hE⟩ := ih a hk2
      exact ⟨_ ++ E, by rw [hE, List.append_assoc]⟩
    · rcases a with _ | ⟨a1, _ | ⟨a2, a⟩⟩
      · rw [List.nil_append] at h2
        rw [← h2] at hk2 ⊢
        obtain ⟨E, hE⟩ := ih [] hk2
        rw [List.nil_append] at hE
        exact ⟨_ ++ E, by rw [hE, List.append_assoc]⟩
      · simp only [List.cons_append, List.nil_append, List.cons.injEq] at h2
        rw [← h2.2] at hk2 ⊢
        rw [readResult_noNul hk2 (by simp [h0])]
        exact ⟨_ ++ ['\n'], by rw [List.append_assoc]; rfl⟩
      · simp only [List.cons_append, List.cons.injEq] at h2
        obtain ⟨_, h3, h4⟩ := h2
        rw [← h3] at h1
        have := hline (early ++ [a1]) a (by rw [h1]; simp)
        subst this
        rw [List.nil_append] at h4
        rw [← h4] at hk2 ⊢
        exact ⟨_, by rw [readResult_noNul hk2 h0]⟩

theorem lastBrace_found {pr : CStr} {k : Nat} (h : ¬Node.lastBrace pr k < 0) : pr[(Node.lastBrace pr k).toNat]? = some '{' := by
  induction k with
  | zero => exact absurd (by simp [Node.lastBrace]) h
  | succ k ih =>
    rw [Node.lastBrace] at h ⊢
    split
    · rename_i hb
      rw [Int.toNat_natCast]; exact hb
    · rename_i hb
      rw [if_neg hb] at h
      exact ih h

theorem seven_safe (r : Result) : JsonText.SafeStart (sevenMembers r) := ⟨_, _, _, rfl, rfl⟩

/-- The text handed to `JSON::Parse` ends with the seven lines of the result. -/
theorem handed_lines {early printed text : CStr} {r : Result} (h : Node.handed (early ++ resultText r) = some (printed, text)) :
    ∃ s, text = s ++ JsonText.lines (sevenMembers r) := by
  have hr := resultText_lines r
  have hnul := resultText_noNul r
  obtain ⟨t, ht, hnt⟩ := resultText_split r
  rw [hr] at hnul ht
  rw [hr] at h
  cases ht
  generalize JsonText.lines (sevenMembers r) = rest at *
  obtain ⟨E, hE⟩ := readResult_after (rest := rest) (fun hm => hnul (by simp [hm])) _ early (Nat.le_refl _)
  unfold Node.handed at h
  simp only [hE] at h
  split at h
  · cases h
  · split at h
    · cases h
    · rename_i hneg
      have hf := lastBrace_found hneg
      generalize Node.lastBrace (E ++ rest) (castInt ↑(E ++ rest).length).toNat = i at h hf
      simp only [Option.some.injEq, Prod.mk.injEq] at h
      have hlt : i.toNat < E.length := by
        refine Classical.byContradiction fun hge => ?_
        rw [List.getElem?_append_right (by omega)] at hf
        exact hnt (by simp [List.mem_of_getElem? hf])
      refine ⟨E.drop i.toNat, ?_⟩
      rw [← h.2, List.drop_append_of_le_length (by omega)]

/-- Whatever was written before the result: a value that the binding returns is an object whose last members are the result's. -/
theorem returned_last {early printed : CStr} {r : Result} {v : JsonText.Value} (h : Node.finish (early ++ resultText r) = .returns printed v) :
    ∃ vs, v = .obj vs ∧ JsonText.shown (sevenMembers r) <:+ vs := by
  cases hh : Node.handed (early ++ resultText r) with
  | none => rw [finish_none hh] at h; cases h
  | some x =>
    obtain ⟨p, text⟩ := x
    rw [Node.finish, hh, Node.parsed] at h
    cases hp : JsonText.parse false text with
    | none => rw [hp] at h; cases h
    | some w =>
      rw [hp] at h
      simp only [Node.Finished.returns.injEq] at h
      obtain ⟨s, rfl⟩ := handed_lines hh
      have hd := JsonText.parse_some hp
      rw [h.2] at hd
      exact JsonText.denotes_lines (fun m hm => (seven_names r m hm).plain) (seven_safe r) s v hd

/-! ## C100 -/

/-- C100, the full claim.  `early` is what the judged program and its descendants write to the judger's standard output before the result is
printed, `late` what they write afterwards; only what is still running writes afterwards.  If the binding returns a value, its seven fields are
what `run()` stored. -/
def C100_full : Prop :=
  ∀ (c : Config) (prior : Result) (e : RunEnv) (pid : Nat) (t : Termination) (F : Family) (r : Result) (effs : List Eff) (early late printed : CStr)
    (v : JsonText.Value), Ended c e pid t F → run c prior e = .returned r effs → (late ≠ [] → ∃ m ∈ F.members, m.running = true) →
    Node.finish (early ++ (resultText r ++ late)) = .returns printed v →
    ∀ m ∈ sevenMembers r, v.get m.1 = some (.num (showInt m.2))

theorem ofInts_get {r : Result} : ∀ m ∈ sevenMembers r, (JsonText.Value.ofInts (sevenMembers r)).get m.1 = some (.num (showInt m.2)) := by
  intro m hm
  simp only [sevenMembers, List.mem_cons, List.not_mem_nil, or_false] at hm
  rcases hm with rfl | rfl | rfl | rfl | rfl | rfl | rfl <;> rfl

/-- C100, whatever comes before the result, NUL bytes and braces included. -/
theorem C100_early (r : Result) (early printed : CStr) (v : JsonText.Value) (h : Node.finish (early ++ resultText r) = .returns printed v) :
    ∀ m ∈ sevenMembers r, v.get m.1 = some (.num (showInt m.2)) := by
  obtain ⟨vs, rfl, hs⟩ := returned_last h
  intro m hm
  rw [JsonText.get_suffix hs ⟨m, hm, rfl⟩]
  exact ofInts_get m hm

/-- C100, the part that holds: under the rule sets `c_cpp` and `c_cpp_file_io`.  Missing: the other rule sets and none, under which a process that
the program leaves behind can print another result (`C100_false`). -/
theorem C100_unforgeable_partial (c : Config) (prior : Result) (e : RunEnv) (pid : Nat) (t : Termination) (F : Family) (r : Result)
    (effs : List Eff) (early late printed : CStr) (v : JsonText.Value) (h : Ended c e pid t F)
    (hn : c.seccompRuleName = some c!"c_cpp" ∨ c.seccompRuleName = some c!"c_cpp_file_io") (_hr : run c prior e = .returned r effs)
    (hl : late ≠ [] → ∃ m ∈ F.members, m.running = true) (hf : Node.finish (early ++ (resultText r ++ late)) = .returns printed v) :
    ∀ m ∈ sevenMembers r, v.get m.1 = some (.num (showInt m.2)) := by
  obtain ⟨_, _, _, hrun, _⟩ := C88_accounted_partial c prior e pid t F h hn
  have : late = [] := Classical.byContradiction fun hne => by
    obtain ⟨m, hm, h1⟩ := hl hne
    rw [hrun m hm] at h1
    cases h1
  subst this
  rw [List.append_nil] at hf
  exact C100_early r early printed v hf

theorem ended_with {c : Config} {ce : ChildEnv} {p q : Proc} (hc : ConfigOk c) (code : Nat) (hv : (Termination.exited code).Valid)
    (hm : c.maxRealTime = sampleConfig.maxRealTime) (hs : Started c ce p q) (G : Family)
    (hl : Lives ⟨[⟨4242, 1, true, 0, 0, q.filters⟩], 0⟩ G) (he : ∃ m ∈ G.members, m.pid = 4242 ∧ m.running = false ∧ m.reported = 12999) :
    Ended c (sampleEnv (Termination.exited code).waitStatus) 4242 (.exited code) G := by
  have hd := sampleEnv_completed _ hv
  obtain ⟨m, h1, h2, h3, h4⟩ := he
  exact ⟨hc, ⟨ce, p, q, 1, hs, hl⟩, ⟨m, h1, h2, h3, by rw [h4]; rfl⟩,
    ⟨hd.root, hd.fork, (by rw [hm]; exact hd.pthread), hd.wait, hd.valid, hd.status, hd.normUtime, hd.normStart, hd.normFinish⟩, by simp,
    (by show IsInt (micros (sampleEnv 0).usage.utime / 1000); decide), (by show IsInt (millis (sampleEnv 0).finish - millis (sampleEnv 0).start); decide)⟩

/-- A judging whose program writes to the judger's standard output, as is the default of the Node binding. -/
def forgerConfig (rule : Option CStr) : Config := { sampleConfig with outputPath := some c!"/dev/stdout", seccompRuleName := rule }

theorem forger_started (rule : Option CStr) (h : ∀ n, rule = some n → n ∈ profileNames) :
    ∃ q, Started (forgerConfig rule) (sampleChild fun _ => false) sampleProc q := by
  obtain ⟨q, hq⟩ := C17_starts (forgerConfig rule) (sampleChild fun _ => false) sampleProc sampleConfig_ok (by simp [forgerConfig, sampleConfig]) rfl rfl
    h (fun _ _ => rfl)
  exact ⟨q, _, _, _, hq⟩

/-- A program that computes for 12999 us, and exits. -/
theorem lives_once (fs : List Filter) (judger : Nat) : Lives ⟨[⟨4242, judger, true, 0, 0, fs⟩], 0⟩ ⟨[⟨4242, judger, false, 12999, 0, fs⟩], 12999⟩ := by
  have h1 := Lives.start ⟨[⟨4242, judger, true, 0, 0, fs⟩], 0⟩
  have h2 := Lives.spends h1 _ 12999 (List.mem_singleton.2 rfl) rfl
  have h3 := Lives.ends h2 _ (List.mem_singleton.2 rfl)
  simpa [Family.update] using h3

/-- A program that computes for 12999 us, starts a process, and exits. -/
theorem lives_leaving (fs : List Filter) (ha : evalAll fs (Req.mk' 435 [0x1000, 88]) = .allow) (judger : Nat) :
    Lives ⟨[⟨4242, judger, true, 0, 0, fs⟩], 0⟩ ⟨[⟨4242, judger, false, 12999, 0, fs⟩, ⟨4243, 4242, true, 0, 0, fs⟩], 12999⟩ := by
  have h1 := Lives.start ⟨[⟨4242, judger, true, 0, 0, fs⟩], 0⟩
  have h2 := Lives.spends h1 _ 12999 (List.mem_singleton.2 rfl) rfl
  have h3 := Lives.forks h2 _ (Req.mk' 435 [0x1000, 88]) 4243 (List.mem_singleton.2 rfl) rfl (by decide) ha
    (by intro x hx; rw [List.mem_singleton.1 hx]; simp)
  have h4 := Lives.ends h3 _ (List.mem_append_left _ (List.mem_singleton.2 rfl))
  simpa [Family.update] using h4

/-- What `run()` stores for it: exit code 1, "runtime error". -/
def forgerResult : Result := ⟨12, 31, 2048000, 0, 1, 0, 4⟩

theorem forger_result (rule : Option CStr) : ∃ effs, run (forgerConfig rule) (noResult 0) (sampleEnv 256) = .returned forgerResult effs := ⟨_, rfl⟩

theorem forger_text : resultText forgerResult = c!"{\n    \"cpu_time\": 12,\n    \"real_time\": 31,\n    \"memory\": 2048000,\n    \"signal\": 0,\n    \"exit_code\": 1,\n    \"error\": 0,\n    \"result\": 4\n}" := by
  simp [resultText, forgerResult, showInt, showNat, digitChar]

theorem forged_text : resultText (noResult 0) = c!"{\n    \"cpu_time\": 0,\n    \"real_time\": 0,\n    \"memory\": 0,\n    \"signal\": 0,\n    \"exit_code\": 0,\n    \"error\": 0,\n    \"result\": 0\n}" := by
  simp [resultText, noResult, showInt, showNat, digitChar]

/-- The program prints an accepted result and exits with 1, under `c_cpp`: the object returned says "runtime error". -/
example : ∃ F effs v, Ended (forgerConfig (some c!"c_cpp")) (sampleEnv 256) 4242 (.exited 1) F ∧
    run (forgerConfig (some c!"c_cpp")) (noResult 0) (sampleEnv 256) = .returned forgerResult effs ∧
    Node.finish (resultText (noResult 0) ++ (resultText forgerResult ++ [])) = .returns (resultText (noResult 0)) v ∧
    v.get c!"result" = some (.num (showInt RUNTIME_ERROR)) := by
  obtain ⟨q, hq⟩ := forger_started (some c!"c_cpp") (fun _ h => by cases h; decide)
  obtain ⟨effs, hr⟩ := forger_result (some c!"c_cpp")
  refine ⟨_, effs, .ofInts (sevenMembers forgerResult), ended_with (c := forgerConfig (some c!"c_cpp")) sampleConfig_ok 1
    (by simp [Termination.Valid]) rfl hq _ (lives_once _ 1) ⟨_, List.mem_singleton.2 rfl, rfl, rfl, rfl⟩, hr, ?_, rfl⟩
  rw [List.append_nil]
  exact C62_result_found_partial _ _ (resultText_noNul _) (by rw [forger_text, forged_text]; decide +kernel)

/-- Without a rule set a process left behind prints an accepted result after the real one, "runtime error": the object returned says "accepted". -/
theorem C100_witness : ∃ F effs v, Ended (forgerConfig none) (sampleEnv 256) 4242 (.exited 1) F ∧ (∃ m ∈ F.members, m.running = true) ∧
    run (forgerConfig none) (noResult 0) (sampleEnv 256) = .returned forgerResult effs ∧ forgerResult.result = RUNTIME_ERROR ∧
    Node.finish ([] ++ (resultText forgerResult ++ resultText (noResult 0))) = .returns (resultText forgerResult) v ∧ SaysAccepted v := by
  obtain ⟨q, hq⟩ := forger_started none (fun _ h => by cases h)
  obtain ⟨effs, hr⟩ := forger_result none
  have hf := (C23_profile_enforced _ _ _ _ hq).1
  refine ⟨_, effs, .ofInts (sevenMembers (noResult 0)), ended_with (c := forgerConfig none) sampleConfig_ok 1 (by simp [Termination.Valid]) rfl hq _
    (lives_leaving q.filters (by rw [hf]; decide) 1) ⟨_, List.mem_cons_self .., rfl, rfl, rfl⟩, ⟨_, List.mem_cons_of_mem _ (List.mem_singleton.2 rfl), rfl⟩, hr, rfl, ?_,
    (last_accepted (List.suffix_refl _)).2 ⟨rfl, rfl⟩⟩
  rw [List.nil_append]
  exact C62_result_found_partial _ _ (resultText_noNul _) (by rw [forger_text, forged_text]; decide +kernel)

theorem C100_false : ¬C100_full := by
  intro h
  obtain ⟨F, effs, v, h1, h2, h3, h4, h5, h6⟩ := C100_witness
  have := h _ _ _ _ _ F _ effs [] _ _ v h1 h3 (fun _ => h2) h5 (c!"result", forgerResult.result) (by simp [sevenMembers])
  obtain ⟨_, x, hx, t, ht, hz⟩ := h6
  rw [this, Option.some.injEq] at hx
  rw [← hx] at ht
  cases ht
  rw [JsonText.zeroText_showInt] at hz
  exact absurd hz (by decide)

/-! ## C101 -/

open Judger.Spec.Node in
theorem node_inRange {q : Request} (h : q.Ok) : q.wanted.InRange := by
  have hi : ∀ o d, IsInt d → IsInt ((q.int o).getD d) := by
    intro o d hd
    cases ho : q.int o with
    | none => exact hd
    | some n => exact h.ints o n ho
  have hl : ∀ n, IsInt n → IsLong n := by
    intro n hn
    simp only [IsInt, IsLong, INT_MIN, INT_MAX, LONG_MIN, LONG_MAX] at *
    omega
  have hu : ∀ n, 0 ≤ castU32 n ∧ castU32 n < 4294967296 := by
    intro n
    unfold castU32
    omega
  exact ⟨hi _ _ (by decide), hi _ _ (by decide), hl _ (hi _ _ (by decide)), hl _ (hi _ _ (by decide)), hi _ _ (by decide), hl _ (hi _ _ (by decide)),
    (by simp only [Request.wanted]; split <;> decide), hu _, hu _⟩

open Judger.Node Judger.Spec.Node in
/-- C101: if a Node call with a harmless request (`Harmless`, fewer than 255 arguments) by a root caller returns an object that says "accepted",
then, whatever the program wrote before the result, the request is acceptable, the program it names was started with its arguments, its
environment and its limits, it exited with code 0, and it used no more CPU time, real time and memory than the request allows. -/
theorem C101_object_accepted (posix : Bool) (junk : Cells) (prior : Result) (e : RunEnv) (out printed : CStr) (q : Request) (v : JsonText.Value)
    (t : Termination) (ce : ChildEnv) (p : Proc) (h : Harmless q) (hp : q.Proper) (hn : (q.args.getD []).length < 255)
    (hd : NodeEnds posix junk prior e out q.get (.finished (.returns printed v))) (hm : Measured e t) (hc : Course q.wanted ce p t)
    (htop : ∀ n, q.int .maxCpuTime = some n → n ≤ 2147482647) (ha : SaysAccepted v) :
    q.Ok ∧ ∃ qp exe, q.text .exePath = some exe ∧
      childProcess q.wanted ce p = .stop (.execed exe (exe :: q.args.getD []) (q.env.getD [])) qp ∧
      (∀ lim, match wantedLimit q.wanted lim with
        | some x => qp.limits lim = ⟨x, x⟩
        | none => qp.limits lim = p.limits lim) ∧
      t = .exited 0 ∧ Within ((q.int .maxCpuTime).getD (-1)) (usageOf e).cpuMs ∧ Within ((q.int .maxRealTime).getD (-1)) (usageOf e).realMs ∧
      Within ((q.int .maxMemory).getD (-1)) (usageOf e).memBytes := by
  have hok : q.Ok := Classical.byContradiction fun hno => by
    have := C83_refused posix junk prior e out q _ h hp hno hd
    cases this
  rcases ends_words h hd with ⟨recs, text, m, hw, ht, he⟩ | ⟨c, r, effs, m, hr, he⟩
  · exfalso
    rw [finish_noBrace (report_noBrace hw (fun w hx hc => by
      obtain ⟨e, he, rfl⟩ := List.mem_map.1 hx
      have := harmless_words h e he _ hc
      revert this; decide) m ht)] at he
    cases he
  · obtain ⟨cmd, argv, g1, g2, g3⟩ := C63_plain_partial q hok hn h.env h.texts
    obtain ⟨k1, k2⟩ := harmless_command h
    rw [k1, NRes.ok.injEq] at g1
    subst g1
    rw [k2] at g2
    obtain rfl : _ = argv := by simpa using g2
    have hcw := (g3 posix junk).unique m
    simp only [MainOut.runs.injEq] at hcw
    subst hcw
    simp only [NodeEnd.finished.injEq] at he
    obtain ⟨vs, rfl, hs⟩ := returned_last he.symm
    have hacc := (last_accepted hs).1 ha
    have htop' : q.wanted.maxCpuTime ≤ 2147482647 := by
      simp only [Request.wanted]
      cases hi : q.int .maxCpuTime with
      | none => decide
      | some n => exact htop n hi
    obtain ⟨_, hcfg, _, _, _, ht, w1, w2, w3⟩ :=
      (C05_accepted_iff _ prior e t hm.valid hm.status hm.normUtime hm.normStart hm.normFinish r effs hr).1 hacc
    obtain ⟨qp, hq, _⟩ := C97_accepted_was_started _ prior e t ce p r effs hm hc htop' hr hacc
    obtain ⟨exe, hexe⟩ := hok.exe
    refine ⟨hok, qp, exe, hexe, ?_, ?_, ht, w1, w2, w3⟩
    · rw [hq]
      simp [Request.wanted, hexe]
    · intro lim
      exact C14_limits _ ce p qp hcfg (node_inRange hok) ⟨_, _, _, hq⟩ lim

open Judger.Node Judger.Spec.Node in
/-- The sample request, accepted; its program writes a greeting. -/
example (posix : Bool) (junk : Cells) : ∃ v, Harmless (nodeSample (some [c!"hello"]) none) ∧ (nodeSample (some [c!"hello"]) none).Proper ∧
    NodeEnds posix junk (noResult 0) (sampleEnv 0) c!"hello\n" (nodeSample (some [c!"hello"]) none).get (.finished (.returns c!"hello\n" v)) ∧
    Measured (sampleEnv 0) (.exited 0) ∧ Course (nodeSample (some [c!"hello"]) none).wanted (sampleChild fun _ => false) sampleProc (.exited 0) ∧
    SaysAccepted v := by
  have ht : ∀ s, (nodeSample (some [c!"hello"]) none).HasText s → AllPlain s ∧ s.length < 255 := by
    intro s h
    rcases nodeSample_text h with rfl | h | h
    · exact ⟨List.all_eq_true.mp (by decide), by decide⟩
    · obtain rfl : s = c!"hello" := by simpa using h
      exact ⟨List.all_eq_true.mp (by decide), by decide⟩
    · simp at h
  obtain ⟨cmd, argv, g1, g2, g3⟩ := C63_plain_partial (nodeSample (some [c!"hello"]) none) (nodeSample_ok _ _ (by decide) (by decide) (by decide))
    (by decide) (Or.inl rfl) ht
  obtain ⟨effs, hr⟩ : ∃ effs, run (nodeSample (some [c!"hello"]) none).wanted (noResult 0) (sampleEnv 0) = .returned ⟨12, 31, 2048000, 0, 0, 0, 0⟩ effs :=
    ⟨_, rfl⟩
  have hcfg : ConfigOk (nodeSample (some [c!"hello"]) none).wanted := by
    simp [ConfigOk, LimitOk, Request.wanted, nodeSample]
  obtain ⟨qp, hq⟩ := C17_starts _ (sampleChild fun _ => false) sampleProc hcfg (by decide) rfl rfl (fun _ h => by cases h) (fun _ _ => rfl)
  have hd := NodeEnds.ran (out := c!"hello\n") cmd argv _ _ effs g1 g2 (g3 posix junk) hr
  have hx : resultText ⟨12, 31, 2048000, 0, 0, 0, 0⟩ = c!"{\n    \"cpu_time\": 12,\n    \"real_time\": 31,\n    \"memory\": 2048000,\n    \"signal\": 0,\n    \"exit_code\": 0,\n    \"error\": 0,\n    \"result\": 0\n}" := by
    simp [resultText, showInt, showNat, digitChar]
  rw [C62_result_found_partial _ _ (by decide) (by rw [hx]; decide +kernel)] at hd
  refine ⟨_, ⟨ht, .inl rfl⟩, ⟨?_, ?_⟩, hd, ⟨by decide, rfl, by simp [Normal, sampleEnv], by simp [Normal, sampleEnv], by simp [Normal, sampleEnv]⟩,
    .program qp ⟨_, _, _, hq⟩, (last_accepted (r := ⟨12, 31, 2048000, 0, 0, 0, 0⟩) (List.suffix_refl _)).2 ⟨rfl, rfl⟩⟩
  · intro o h; cases o <;> first | rfl | exact absurd rfl h
  · intro o h; cases o <;> first | rfl | simp [Cli.Opt.takes] at h

/-! ## C102 -/

/-- C102, the full claim, in the terms of `C100_full`; `err` is what arrives on the judger's standard error.  If the Python call returns a value, it
is the dict of what `run()` stored. -/
def C102_full : Prop :=
  ∀ (c : Config) (prior : Result) (e : RunEnv) (pid : Nat) (t : Termination) (F : Family) (r : Result) (effs : List Eff) (early late err : CStr)
    (v : JsonText.Value), Ended c e pid t F → run c prior e = .returned r effs → (late ≠ [] → ∃ m ∈ F.members, m.running = true) →
    Py.finish (early ++ (resultText r ++ late)) err = .value v → v = .ofInts (sevenMembers r)

/-- C102, whatever comes before the result: the call returns a value exactly if nothing but blanks does and nothing arrives on stderr, and the value
is the dict of the result. -/
theorem C102_early (r : Result) (early err : CStr) (v : JsonText.Value) :
    Py.finish (early ++ resultText r) err = .value v ↔ err = [] ∧ (∀ c ∈ early, c ∈ c!" \t\n\r") ∧ v = .ofInts (sevenMembers r) := by
  rw [finish_value, result_after]
  exact ⟨fun ⟨h1, _, h2⟩ => ⟨h1, h2⟩, fun ⟨h1, h2⟩ => ⟨h1, after_utf8 h2.1 r, h2⟩⟩

/-- C102, whatever comes after the result: if nothing but blanks came before it, as when the program's output goes to a file. -/
theorem C102_late (r : Result) (early late err : CStr) (v : JsonText.Value) (hb : ∀ c ∈ early, c ∈ c!" \t\n\r")
    (h : Py.finish (early ++ (resultText r ++ late)) err = .value v) : v = .ofInts (sevenMembers r) := by
  have h1 := (finish_value.1 h).2.2
  rw [resultText_lines] at h1
  exact (JsonText.denotes_then (by simp [sevenMembers]) (seven_names r) early late hb v h1).2

/-- C102, the part that holds: under the rule sets `c_cpp` and `c_cpp_file_io`, or if nothing but blanks is written before the result.  Missing: the
other rule sets and none with a program whose standard output is the judger's, which can print the beginning of an object and leave behind a process
that prints its end (`C102_false`). -/
theorem C102_unforgeable_partial (c : Config) (prior : Result) (e : RunEnv) (pid : Nat) (t : Termination) (F : Family) (r : Result)
    (effs : List Eff) (early late err : CStr) (v : JsonText.Value) (h : Ended c e pid t F)
    (hn : (c.seccompRuleName = some c!"c_cpp" ∨ c.seccompRuleName = some c!"c_cpp_file_io") ∨ ∀ x ∈ early, x ∈ c!" \t\n\r")
    (_hr : run c prior e = .returned r effs)
    (hl : late ≠ [] → ∃ m ∈ F.members, m.running = true) (hf : Py.finish (early ++ (resultText r ++ late)) err = .value v) :
    v = .ofInts (sevenMembers r) := by
  rcases hn with hn | hn
  · obtain ⟨_, _, _, hrun, _⟩ := C88_accounted_partial c prior e pid t F h hn
    have : late = [] := Classical.byContradiction fun hne => by
      obtain ⟨m, hm, h1⟩ := hl hne
      rw [hrun m hm] at h1
      cases h1
    subst this
    rw [List.append_nil] at hf
    exact ((C102_early r early err v).1 hf).2.2
  · exact C102_late r early late err v hn hf

/-- The program prints a newline and exits with 1, under `c_cpp`: the dict says "runtime error". -/
example : ∃ F effs, Ended (forgerConfig (some c!"c_cpp")) (sampleEnv 256) 4242 (.exited 1) F ∧
    run (forgerConfig (some c!"c_cpp")) (noResult 0) (sampleEnv 256) = .returned forgerResult effs ∧
    Py.finish (c!"\n" ++ (resultText forgerResult ++ [])) [] = .value (.ofInts (sevenMembers forgerResult)) := by
  obtain ⟨q, hq⟩ := forger_started (some c!"c_cpp") (fun _ h => by cases h; decide)
  obtain ⟨effs, hr⟩ := forger_result (some c!"c_cpp")
  refine ⟨_, effs, ended_with (c := forgerConfig (some c!"c_cpp")) sampleConfig_ok 1
    (by simp [Termination.Valid]) rfl hq _ (lives_once _ 1) ⟨_, List.mem_singleton.2 rfl, rfl, rfl, rfl⟩, hr, ?_⟩
  rw [List.append_nil]
  exact (C102_early _ _ _ _).2 ⟨rfl, by decide, rfl⟩

/-- The beginning and the end of the forged object, around the true one. -/
theorem forged_dict (r r' : Result) : JsonText.Denotes true (c!"{\"a\":" ++ (resultText r ++ ',' :: JsonText.lines (sevenMembers r')))
    (.obj ((c!"a", .ofInts (sevenMembers r)) :: JsonText.shown (sevenMembers r'))) := by
  have h7 : ∀ r : Result, sevenMembers r ≠ [] := fun r => by simp [sevenMembers]
  have h1 : JsonText.Lexes true (resultText r) (.lbrace :: (JsonText.toks (sevenMembers r) ++ [.rbrace])) := by
    rw [resultText_lines]
    exact .punct '{' .lbrace _ _ rfl (.blank _ _ _ (by decide) (JsonText.lines_lex (h7 r) (seven_names r)))
  have h2 : JsonText.Lexes true (',' :: JsonText.lines (sevenMembers r')) (.comma :: (JsonText.toks (sevenMembers r') ++ [.rbrace])) :=
    .punct ',' .comma _ _ rfl (JsonText.lines_lex (h7 r') (seven_names r'))
  have h3 := JsonText.lexes_append h1 h2 (by intro c hc; cases hc; decide)
  have h4 : JsonText.Lexes true c!"{\"a\":" [.lbrace, .str c!"a", .colon] :=
    .punct '{' .lbrace _ _ rfl (.str c!"a" [':'] _ (.plain 'a' [] (by decide) (by decide) (by decide) .nil) (.punct ':' .colon _ _ rfl .nil))
  have h5 := JsonText.lexes_append h4 h3 (by
    intro c hc
    rw [resultText_lines] at hc
    cases hc; decide)
  refine ⟨_, h5, ?_⟩
  have hm : JsonText.AreMembers (.str c!"a" :: .colon :: ((.lbrace :: (JsonText.toks (sevenMembers r) ++ [.rbrace])) ++
      .comma :: JsonText.toks (sevenMembers r'))) ((c!"a", .ofInts (sevenMembers r)) :: JsonText.shown (sevenMembers r')) :=
    .more c!"a" _ _ _ _ (.obj _ _ (JsonText.members_toks (h7 r))) (JsonText.members_toks (h7 r'))
  have := JsonText.IsValue.obj _ _ hm
  simpa using this

theorem forged_utf8 (r r' : Result) : Utf8 (c!"{\"a\":" ++ (resultText r ++ ',' :: JsonText.lines (sevenMembers r'))) := by
  refine utf8_append (utf8_ascii (by decide)) (utf8_append (utf8_ascii (result_ascii r)) (utf8_ascii fun c hc => ?_))
  rcases List.mem_cons.1 hc with rfl | hc
  · decide
  exact lines_ascii _ (seven_ascii r') c hc

/-- Without a rule set: the program prints the beginning of an object and exits with 1, a process left behind prints its end, and the dict says
"accepted". -/
theorem C102_witness : ∃ F effs early late v, Ended (forgerConfig none) (sampleEnv 256) 4242 (.exited 1) F ∧ (∃ m ∈ F.members, m.running = true) ∧
    run (forgerConfig none) (noResult 0) (sampleEnv 256) = .returned forgerResult effs ∧ forgerResult.result = RUNTIME_ERROR ∧
    Py.finish (early ++ (resultText forgerResult ++ late)) [] = .value v ∧ SaysAccepted v := by
  obtain ⟨q, hq⟩ := forger_started none (fun _ h => by cases h)
  obtain ⟨effs, hr⟩ := forger_result none
  have hf := (C23_profile_enforced _ _ _ _ hq).1
  refine ⟨_, effs, _, _, _, ended_with (c := forgerConfig none) sampleConfig_ok 1 (by simp [Termination.Valid]) rfl hq _
    (lives_leaving q.filters (by rw [hf]; decide) 1) ⟨_, List.mem_cons_self .., rfl, rfl, rfl⟩, ⟨_, List.mem_cons_of_mem _ (List.mem_singleton.2 rfl), rfl⟩, hr, rfl,
    finish_value.2 ⟨rfl, forged_utf8 forgerResult (noResult 0), forged_dict forgerResult (noResult 0)⟩, (last_accepted (r := noResult 0) (List.suffix_cons _ _)).2 ⟨rfl, rfl⟩⟩

theorem C102_false : ¬C102_full := by
  intro h
  obtain ⟨F, effs, early, late, v, h1, h2, h3, _, h5, h6⟩ := C102_witness
  have := h _ _ _ _ _ F _ effs early late [] v h1 h3 (fun _ => h2) h5
  rw [this] at h6
  exact absurd ((last_accepted (List.suffix_refl _)).1 h6) (by decide)

end Judger
