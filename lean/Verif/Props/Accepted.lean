import Verif.Props.Delivery
import Verif.Props.PythonCall
import Verif.Spec.Accepted

/-!
# C97: what was not started is not accepted; C98, C99: what an accepted result says, from the words or the Python call to the program
-/

set_option autoImplicit false

namespace Judger

open Judger.Spec

/-! ## C97 -/

/-- A child that does not become the program is killed, exits with 1 or waits for ever. -/
theorem died_how {c : Config} {ce : ChildEnv} {p q : Proc} {s : Stop} (h : Died c ce p s q) : (∃ sig, s = .killed sig) ∨ s = .exited 1 ∨ s = .hung := by
  obtain ⟨h1, h2, h3⟩ := h
  have hf : FailStop ce s → (∃ sig, s = .killed sig) ∨ s = .exited 1 ∨ s = .hung := by
    rintro (rfl | rfl | ⟨sig, _, rfl⟩ | rfl | rfl | ⟨rfl, _⟩)
    · exact .inl ⟨_, rfl⟩
    · exact .inl ⟨_, rfl⟩
    · exact .inl ⟨_, rfl⟩
    · exact .inl ⟨_, rfl⟩
    · exact .inr (.inl rfl)
    · exact .inr (.inr rfl)
  by_cases hu : addInt c.maxCpuTime 1000 ≠ .ub ∨ c.maxCpuTime = UNLIMITED
  · rcases childProcess_run (e := ce) (p := p) c hu with ⟨s', q', h', hs, _⟩ | ⟨h', _⟩
    · rw [h1] at h'; cases h'; exact hf hs
    · rw [h1] at h'; cases h'; exact absurd rfl (h2 _ _ _)
  · simp only [not_or, Classical.not_not] at hu
    rcases childProcess_ub (e := ce) (p := p) c hu.1 hu.2 with ⟨s', q', h', hs, _⟩ | ⟨q', h'⟩
    · rw [h1] at h'; cases h'; exact hf hs
    · rw [h1] at h'; cases h'; exact absurd rfl h3

theorem not_undefined {c : Config} {ce : ChildEnv} {p q : Proc} (hok : ConfigOk c) (htop : c.maxCpuTime ≤ 2147482647)
    (h : childProcess c ce p = .stop .ub q) : False := by
  have hu : addInt c.maxCpuTime 1000 ≠ .ub ∨ c.maxCpuTime = UNLIMITED := by
    have h1 := hok.1
    unfold LimitOk at h1
    refine .inl ?_
    unfold addInt
    rw [if_pos (by simp only [IsInt, INT_MIN, INT_MAX]; omega)]
    simp
  rcases childProcess_run (e := ce) (p := p) c hu with ⟨s', q', h', hs, _⟩ | ⟨h', _⟩
  · rw [h] at h'; cases h'
    rcases hs with hs | hs | ⟨_, _, hs⟩ | hs | hs | ⟨hs, _⟩ <;> cases hs
  · rw [h] at h'; cases h'

/-- C97: if `run()` reports a run as accepted, the child has become the program, and every requested step of the set-up has worked.  (For
`max_cpu_time` up to 2147482647; above, C15.) -/
theorem C97_accepted_was_started (c : Config) (prior : Result) (e : RunEnv) (t : Termination) (ce : ChildEnv) (p : Proc) (r : Result)
    (effs : List Eff) (hm : Measured e t) (hc : Course c ce p t) (htop : c.maxCpuTime ≤ 2147482647) (hr : run c prior e = .returned r effs)
    (ha : r.error = 0 ∧ r.result = 0) :
    ∃ q, childProcess c ce p = .stop (.execed c.exePath c.args c.env) q ∧ ∀ s, Requested c ce.hasExecveat s → ce.fails s = false := by
  obtain ⟨_, hok, _, _, _, ht, _⟩ :=
    (C05_accepted_iff c prior e t hm.valid hm.status hm.normUtime hm.normStart hm.normFinish r effs hr).1 ha
  subst ht
  cases hc with
  | program q h =>
    refine ⟨q, ?_, fun s hs => C17_fail_closed c ce p q hok h s hs⟩
    obtain ⟨path, argv, envp, hx⟩ := h
    obtain ⟨s', q', h1, h2⟩ := C25_never_returns c ce p
    rw [hx] at h1
    cases h1
    obtain ⟨rfl, rfl, rfl⟩ := h2 _ _ _ rfl
    exact hx
  | died s q h hr =>
    rcases died_how h with ⟨sig, rfl⟩ | rfl | rfl
    · cases hr
    · exact absurd hr (by simp [Reports])
    · cases hr
  | interrupted h => exact absurd rfl (h 0)
  | undefined q h => exact (not_undefined hok htop h).elim

/-- The sample is accepted, its program having been started. -/
example : ∃ r effs, Measured (sampleEnv 0) (.exited 0) ∧ Course sampleConfig (sampleChild fun _ => false) sampleProc (.exited 0) ∧
    sampleConfig.maxCpuTime ≤ 2147482647 ∧ run sampleConfig (noResult 0) (sampleEnv 0) = .returned r effs ∧ r.error = 0 ∧ r.result = 0 :=
  ⟨_, _, ⟨by decide, rfl, by simp [Normal, sampleEnv], by simp [Normal, sampleEnv], by simp [Normal, sampleEnv]⟩,
    .program _ sample_started, by decide, rfl, rfl, rfl⟩

/-- A course that ends before: the input file is missing. -/
example : ∃ s t, Course sampleConfig (sampleChild (· == .openInput)) { sampleProc with ignored := (· == 10) } t ∧ s = Stop.exited 1 ∧ t = .exited 1 := by
  obtain ⟨q, h⟩ := C24_witness_blocked
  exact ⟨_, .exited 1, .died _ q h rfl, rfl, rfl⟩

/-! ## C98 -/

/-- An object whose last seven members are those of `r` says "accepted" exactly when error and result are 0. -/
theorem last_accepted {r : Result} {vs : List (CStr × JsonText.Value)} (h : JsonText.shown (sevenMembers r) <:+ vs) :
    SaysAccepted (.obj vs) ↔ r.error = 0 ∧ r.result = 0 := by
  have he : (JsonText.Value.obj vs).get c!"error" = some (.num (showInt r.error)) :=
    (JsonText.get_suffix h ⟨(c!"error", r.error), by simp [sevenMembers], rfl⟩).trans rfl
  have hr : (JsonText.Value.obj vs).get c!"result" = some (.num (showInt r.result)) :=
    (JsonText.get_suffix h ⟨(c!"result", r.result), by simp [sevenMembers], rfl⟩).trans rfl
  have hz : ∀ n : Int, (JsonText.Value.num (showInt n)).IsZero ↔ n = 0 := by
    intro n
    rw [← JsonText.zeroText_showInt]
    constructor
    · rintro ⟨t, h1, h2⟩
      cases h1
      exact h2
    · exact fun h => ⟨_, rfl, h⟩
  simp only [SaysAccepted, he, hr, Option.some.injEq, exists_eq_left', hz]

/-- The printed object says "accepted" exactly when error and result are 0. -/
theorem says_accepted {r : Result} {v : JsonText.Value} (h : JsonText.Denotes false (resultText r) v) :
    SaysAccepted v ↔ r.error = 0 ∧ r.result = 0 := by
  rw [(C58_only _ _ _).1 h]
  exact last_accepted (List.suffix_refl _)

open Judger.Spec.Cli in
theorem kept_iff {is : List Item} {o : Opt} {n used : Int} (hf : Fine is) (ho : o.takes = .int) (h : IntIs o is (-1) n) :
    Kept o is used ↔ LimitOk n ∧ Within n used := by
  constructor
  · rintro (h0 | ⟨t, m, h1, h2, h3⟩)
    · rcases h with ⟨t, h1, _⟩ | ⟨_, rfl⟩
      · rw [h0] at h1; cases h1
      · exact ⟨.inl rfl, .inl rfl⟩
    · have : n = m := IntIs.unique hf ho h (.inl ⟨t, h1, h2⟩)
      subst this
      rcases h3 with h3 | ⟨h3, h4⟩
      · exact ⟨.inl h3, .inl h3⟩
      · exact ⟨.inr h3, .inr h4⟩
  · rintro ⟨h1, h2⟩
    rcases h with ⟨t, h3, h4⟩ | ⟨h3, _⟩
    · refine .inr ⟨t, n, h3, h4, ?_⟩
      unfold LimitOk at h1
      unfold Within at h2
      omega
    · exact .inl h3

open Judger.Spec.Cli in
/-- C98: if the judger is called with the words `ws` by a root caller and prints an object that says "accepted", then the program named by
`--exe_path` was started as the words ask (`Finds`, C77), it exited with code 0, and it used no more CPU time, real time and memory than the
words allow. -/
theorem C98_printed_accepted (posix : Bool) (junk : Cells) (a : CStr) (ws : List CStr) (is : List Item) (c : Config) (prior : Result) (e : RunEnv)
    (t : Termination) (ce : ChildEnv) (p : Proc) (r : Result) (effs : List Eff) (v : JsonText.Value)
    (h : MainDoes posix junk (a :: ws) (.runs c)) (hs : Scan posix ws is) (hm : Measured e t) (hc : Course c ce p t) (hroot : p.uid.e = 0)
    (htop : ∀ w n, given .maxCpuTime is = [w] → LooseIntText w n → n ≤ 2147482647) (hr : run c prior e = .returned r effs)
    (hp : JsonText.Denotes false (resultText r) v) (ha : SaysAccepted v) :
    ∃ q path argv envp, childProcess c ce p = .stop (.execed path argv envp) q ∧ Finds is p q path envp ∧
      ((given .args is).length ≠ 255 ∨ given .env is = [] → argv = path :: given .args is) ∧ t = .exited 0 ∧
      Kept .maxCpuTime is (usageOf e).cpuMs ∧ Kept .maxRealTime is (usageOf e).realMs ∧ Kept .maxMemory is (usageOf e).memBytes := by
  rw [says_accepted hp] at ha
  obtain ⟨hf, hsc, _, _⟩ := runs_inv hs h
  have htop' : c.maxCpuTime ≤ 2147482647 := by
    rcases hsc.cpu with ⟨w, h1, h2⟩ | ⟨_, h2⟩
    · exact htop _ _ h1 h2
    · rw [h2]; decide
  obtain ⟨_, hok, _, _, _, ht, h1, h2, h3⟩ :=
    (C05_accepted_iff c prior e t hm.valid hm.status hm.normUtime hm.normStart hm.normFinish r effs hr).1 ha
  obtain ⟨q, hq, _⟩ := C97_accepted_was_started c prior e t ce p r effs hm hc htop' hr ha
  obtain ⟨f1, f2, f3⟩ := finds posix junk a ws is c _ _ _ ce p q _ _ _ h hs (forks c hok) hroot hq
  refine ⟨q, _, _, _, hq, f1, fun hn => ?_, ht, (kept_iff hf rfl hsc.cpu).2 ⟨hok.1, h1⟩, (kept_iff hf rfl hsc.real).2 ⟨hok.2.1, h2⟩,
    (kept_iff hf rfl hsc.mem).2 ⟨hok.2.2.1, h3⟩⟩
  exact C50_arguments_partial posix junk a ws is c h hs hn

open Judger.Spec.Cli in
/-- C98, the converse: if the calls of `run()` work, its settings are valid and the program exits with code 0 within the limits of the words,
then the printed object says "accepted". -/
theorem C98_accepted_printed (posix : Bool) (junk : Cells) (a : CStr) (ws : List CStr) (is : List Item) (c : Config) (prior : Result) (e : RunEnv)
    (pid : Nat) (h : MainDoes posix junk (a :: ws) (.runs c)) (hs : Scan posix ws is) (hok : ConfigOk c) (hcomp : Completed c e pid (.exited 0))
    (h1 : Kept .maxCpuTime is (usageOf e).cpuMs) (h2 : Kept .maxRealTime is (usageOf e).realMs) (h3 : Kept .maxMemory is (usageOf e).memBytes) :
    ∃ r effs v, run c prior e = .returned r effs ∧ JsonText.Denotes false (resultText r) v ∧ SaysAccepted v := by
  obtain ⟨hf, hsc, _, _⟩ := runs_inv hs h
  obtain ⟨r, effs, hr, _⟩ := C04_verdict c prior e pid _ hok hcomp
  refine ⟨r, effs, _, hr, (C58_only _ r _).2 rfl, (says_accepted ((C58_only _ r _).2 rfl)).2 ?_⟩
  exact (C05_accepted_iff c prior e _ hcomp.valid hcomp.status hcomp.normUtime hcomp.normStart hcomp.normFinish r effs hr).2
    ⟨hcomp.root, hok, ⟨pid, hcomp.fork⟩, hcomp.pthread, hcomp.wait, rfl, ((kept_iff hf rfl hsc.cpu).1 h1).2, ((kept_iff hf rfl hsc.real).1 h2).2,
      ((kept_iff hf rfl hsc.mem).1 h3).2⟩

open Judger.Spec.Cli in
/-- The sample line and the sample run meet the hypotheses of both. -/
theorem sample_printed (junk : Cells) : ∃ c q, MainDoes false junk (c!"j" :: sampleLine) (.runs c) ∧ Scan false sampleLine sampleItems ∧
    ConfigOk c ∧ Started c (sampleChild fun _ => false) sampleProc q ∧ Completed c (sampleEnv 0) 4242 (.exited 0) ∧
    c.maxCpuTime = -1 ∧ c.maxRealTime = -1 ∧ c.maxMemory = 67108864 := by
  obtain ⟨c, hc⟩ := sample_runs false junk c!"j"
  have hd := C49_defaults _ _ _ _ _ c hc (sample_scan false)
  have hmem := (C47_documented_form _ _ _ _ _ c .maxMemory _ c!"64MB" _ hc (sample_scan false) rfl (by decide) intText_64MB).1
  have hcfg : ConfigOk c := by
    refine ⟨Or.inl (hd.cpu (by decide)), Or.inl (hd.real (by decide)), Or.inr ?_, Or.inl (hd.nproc (by decide)),
      Or.inl (hd.out (by decide)), ?_⟩
    · rw [hmem]; decide
    · rw [hd.stack (by decide)]; decide
  obtain ⟨q, hq⟩ := C17_starts c (sampleChild fun _ => false) sampleProc hcfg (by rw [hd.cpu (by decide)]; decide) rfl rfl
    (by rw [hd.seccomp (by decide)]; simp) (fun _ _ => rfl)
  exact ⟨c, q, hc, sample_scan false, hcfg, ⟨_, _, _, hq⟩,
    ⟨rfl, rfl, .inr rfl, rfl, by decide, rfl, by simp [Normal, sampleEnv], by simp [Normal, sampleEnv], by simp [Normal, sampleEnv]⟩,
    hd.cpu (by decide), hd.real (by decide), hmem⟩

open Judger.Spec.Cli in
example (junk : Cells) : ∃ c r effs v, MainDoes false junk (c!"j" :: sampleLine) (.runs c) ∧ Measured (sampleEnv 0) (.exited 0) ∧
    Course c (sampleChild fun _ => false) sampleProc (.exited 0) ∧ sampleProc.uid.e = 0 ∧ given .maxCpuTime sampleItems = [] ∧
    run c (noResult 0) (sampleEnv 0) = .returned r effs ∧ JsonText.Denotes false (resultText r) v ∧ SaysAccepted v := by
  obtain ⟨c, q, h1, h2, h3, h4, h5, k1, k2, k3⟩ := sample_printed junk
  obtain ⟨hf, hsc, _, _⟩ := runs_inv h2 h1
  obtain ⟨r, effs, ms, h6, h7, h8⟩ := C98_accepted_printed false junk _ _ _ c (noResult 0) (sampleEnv 0) 4242 h1 h2 h3 h5
    ((kept_iff hf rfl hsc.cpu).2 ⟨h3.1, by rw [k1]; exact .inl rfl⟩) ((kept_iff hf rfl hsc.real).2 ⟨h3.2.1, by rw [k2]; exact .inl rfl⟩)
    ((kept_iff hf rfl hsc.mem).2 ⟨h3.2.2.1, by rw [k3]; exact .inr (by decide)⟩)
  exact ⟨c, r, effs, ms, h1, ⟨h5.valid, h5.status, h5.normUtime, h5.normStart, h5.normFinish⟩, .program q h4, rfl, by decide, h6, h7, h8⟩

/-! ## C99 -/

open Judger.Spec.Python in
theorem wanted_inRange {q : Request} (h : q.Ok) : q.wanted.InRange := by
  have hi := h.ints
  simp only [List.mem_cons, List.not_mem_nil, or_false, forall_eq_or_imp, forall_eq] at hi
  obtain ⟨h1, h2, h3, h4, h5, h6, _⟩ := hi
  simp only [IsInt, INT_MIN, INT_MAX] at *
  constructor <;> simp only [Request.wanted, IsInt, IsLong, INT_MIN, INT_MAX, LONG_MIN, LONG_MAX, orDefault, castU32] <;> omega

open Judger.Py Judger.Spec.Python in
/-- C99: if a Python call by a root caller returns a dict that says "accepted", then the call is an acceptable request, the program it names was
started with its environment, its arguments (see C59 for 255 of them) and its limits, it exited with code 0, and it used no more CPU time, real
time and memory than the call allows. -/
theorem C99_dict_accepted (posix : Bool) (junk : Cells) (prior : Result) (e : RunEnv) (early extra : CStr) (call : Var → PyVal) (v : JsonText.Value)
    (t : Termination) (ce : ChildEnv) (p : Proc) (h : CallEnds posix junk prior e early extra call (.value v)) (hm : Measured e t)
    (hc : ∀ argv c, start call = .popen argv → MainDoes posix junk argv (.runs c) → Course c ce p t)
    (htop : ∀ n, call .maxCpuTime = .int n → n ≤ 2147482647) (ha : SaysAccepted v) :
    ∃ (rq : Request) (q : Proc) (args : List CStr), rq.Ok ∧ call = rq.call ∧
      (∃ argv c, start call = .popen argv ∧ MainDoes posix junk argv (.runs c) ∧
        childProcess c ce p = .stop (.execed rq.exePath (rq.exePath :: args) rq.env) q) ∧
      (rq.args.length ≠ 255 ∨ rq.env = [] → args = rq.args) ∧
      (∀ lim, match wantedLimit rq.wanted lim with
        | some v => q.limits lim = ⟨v, v⟩
        | none => q.limits lim = p.limits lim) ∧
      t = .exited 0 ∧ Within rq.maxCpuTime (usageOf e).cpuMs ∧ Within rq.maxRealTime (usageOf e).realMs ∧
      Within rq.maxMemory (usageOf e).memBytes := by
  obtain ⟨rq, r, effs, h1, h2, h3, h4⟩ := C81_dict posix junk prior e early extra call v h
  have hacc : r.error = 0 ∧ r.result = 0 := by
    rw [h4] at ha
    exact (last_accepted (List.suffix_refl _)).1 ha
  obtain ⟨argv, hst, hmain⟩ := C59_exact rq h1
  rw [← h2] at hst
  have hc' := hc _ _ hst (hmain posix junk)
  have ht' : rq.maxCpuTime ≤ 2147482647 := htop _ (by rw [h2]; rfl)
  obtain ⟨_, hok, _, _, _, ht, k1, k2, k3⟩ :=
    (C05_accepted_iff _ prior e t hm.valid hm.status hm.normUtime hm.normStart hm.normFinish r effs h3).1 hacc
  obtain ⟨q, hq, _⟩ := C97_accepted_was_started _ prior e t ce p r effs hm hc' ht' h3 hacc
  refine ⟨rq, q, _, h1, h2, ⟨argv, _, hst, hmain posix junk, hq⟩, ?_, ?_, ht, k1, k2, k3⟩
  · intro hn
    split
    · rcases hn with hn | hn
      · contradiction
      · rw [hn, List.append_nil]
    · rw [List.append_nil]
  · intro lim
    have hw := wanted_inRange h1
    exact C14_limits _ ce p q hok (Config.InRange.mk hw.1 hw.2 hw.3 hw.4 hw.5 hw.6 hw.7 hw.8 hw.9) ⟨_, _, _, hq⟩ lim

open Judger.Py Judger.Spec.Python in
/-- The sample call returns such a dict. -/
example (posix : Bool) (junk : Cells) : ∃ v, CallEnds posix junk (noResult 0) (sampleEnv 0) [] [] (sampleRequest [c!"hello world"] []).call (.value v) ∧
    Measured (sampleEnv 0) (.exited 0) ∧ SaysAccepted v ∧
    ∀ argv c, start (sampleRequest [c!"hello world"] []).call = .popen argv → MainDoes posix junk argv (.runs c) →
      Course c (sampleChild fun _ => false) sampleProc (.exited 0) := by
  obtain ⟨argv, h1, h2⟩ := C59_exact (sampleRequest [c!"hello world"] []) (sampleRequest_ok _ _ (by decide) (by decide) (by decide))
  have hr : ∃ effs, run { (sampleRequest [c!"hello world"] []).wanted with args := [c!"/bin/echo", c!"hello world"] } (noResult 0) (sampleEnv 0) =
      .returned ⟨12, 31, 2048000, 0, 0, 0, 0⟩ effs := ⟨_, rfl⟩
  obtain ⟨effs, hr⟩ := hr
  have h := CallEnds.ran (early := []) (extra := []) argv _ _ effs h1 (h2 posix junk) hr
  rw [run_quiet rfl rfl rfl hr, List.append_nil, List.nil_append, C61_returns_result] at h
  refine ⟨_, h, ⟨by decide, rfl, by simp [Normal, sampleEnv], by simp [Normal, sampleEnv], by simp [Normal, sampleEnv]⟩, (last_accepted (List.suffix_refl _)).2 ⟨rfl, rfl⟩, ?_⟩
  intro argv' c h3 h4
  have hc : ConfigOk { (sampleRequest [c!"hello world"] []).wanted with args := [c!"/bin/echo", c!"hello world"] } := by
    simp [ConfigOk, LimitOk, Request.wanted, sampleRequest, orDefault]
  rw [h1] at h3
  cases h3
  cases MainDoes.unique h4 (h2 posix junk)
  obtain ⟨q, hq⟩ := C17_starts _ (sampleChild fun _ => false) sampleProc hc (by decide) rfl rfl
    (fun _ h => by cases h; decide) (fun _ _ => rfl)
  exact .program q ⟨_, _, _, hq⟩

end Judger
