import Verif.Props.Cli
import Verif.Spec.Delivery

/-! # C77: what the command line asks for is what the judged program gets -/

set_option autoImplicit false

namespace Judger

open Judger.Spec Judger.Spec.Cli

/-- C77, the full claim: for every command line that makes `main` call `run()`, if `run()` forks and the child (of a root caller) starts a
program, then the program, its arguments, environment, limits, streams, ids and filter are those of the command line. -/
def C77_full : Prop :=
  ∀ (posix : Bool) (junk : Cells) (a : CStr) (ws : List CStr) (is : List Item) (c : Config) (prior : Result) (e : RunEnv) (effs : List Eff)
    (ce : ChildEnv) (p q : Proc) (path : CStr) (argv envp : List CStr),
    MainDoes posix junk (a :: ws) (.runs c) → Scan posix ws is → run c prior e = .inChild effs → p.uid.e = 0 →
    childProcess c ce p = .stop (.execed path argv envp) q → Finds is p q path envp ∧ argv = path :: given .args is

theorem fine_int {is : List Item} (hf : Fine is) {o : Opt} (ht : o.takes = .int) {d n : Int} (h : IntIs o is d n) (hd : IsInt d) : IsInt n := by
  rcases h with ⟨t, h1, h2⟩ | ⟨_, rfl⟩
  · exact (intIs_isInt hf ht (d := d) (Or.inl ⟨t, h1, h2⟩) h1).2
  · exact hd

theorem means_inRange {is : List Item} {c : Config} (hf : Fine is) (hm : MeansScalars is c) : c.InRange := by
  have hl : ∀ {n : Int}, IsInt n → IsLong n := by
    intro n h
    simp only [IsInt, INT_MIN, INT_MAX] at h
    simp only [IsLong, LONG_MIN, LONG_MAX]
    omega
  obtain ⟨n, _, hc⟩ := hm.check
  obtain ⟨u, _, hu⟩ := hm.uid
  obtain ⟨g, _, hg⟩ := hm.gid
  refine ⟨fine_int hf rfl hm.cpu (by decide), fine_int hf rfl hm.real (by decide), hl (fine_int hf rfl hm.mem (by decide)),
    hl (fine_int hf rfl hm.stack (by decide)), fine_int hf rfl hm.nproc (by decide), hl (fine_int hf rfl hm.out (by decide)), ?_, ?_, ?_⟩
  · rw [hc]; split <;> decide
  · rw [hu]; unfold castU32; omega
  · rw [hg]; unfold castU32; omega

theorem limitFrom_of {is : List Item} {o : Opt} {n : Int} {p q : Proc} {r : Res} {f : Int → Int} (h : IntIs o is (-1) n)
    (hl : match (if n = -1 then none else some (f n)) with
      | some v => q.limits r = ⟨v, v⟩
      | none => q.limits r = p.limits r) : LimitFrom o is p q r f := by
  by_cases hn : n = -1
  · subst hn
    rw [if_pos rfl] at hl
    refine Or.inr ⟨?_, hl⟩
    rcases h with ⟨t, h1, h2⟩ | ⟨h1, _⟩
    · exact Or.inr ⟨t, h1, h2⟩
    · exact Or.inl h1
  · rw [if_neg hn] at hl
    rcases h with ⟨t, h1, h2⟩ | ⟨_, h2⟩
    · exact Or.inl ⟨t, n, h1, h2, hn, hl⟩
    · exact absurd h2 hn

theorem idFrom_of {is : List Item} (hf : Fine is) {o : Opt} (ho : o.takes = .int) {n : Int} {old new : Ids} (h : IntIs o is 65534 n)
    (hi : new = if castU32 n = keepId then old else ⟨castU32 n, castU32 n, castU32 n⟩) : IdFrom o is old new := by
  have hr := fine_int hf ho h (by decide)
  rcases h with ⟨t, h1, h2⟩ | ⟨h1, rfl⟩
  · by_cases hn : n = -1
    · subst hn
      rw [if_pos (by decide)] at hi
      exact Or.inr (Or.inl ⟨t, h1, h2, hi⟩)
    · refine Or.inr (Or.inr ⟨t, n, h1, h2, hn, ?_⟩)
      rw [if_neg] at hi
      · exact hi
      · simp only [IsInt, INT_MIN, INT_MAX] at hr
        unfold castU32 keepId
        omega
  · rw [if_neg (by decide)] at hi
    exact Or.inl ⟨h1, hi⟩

/-- Everything but the argument vector. -/
theorem finds (posix : Bool) (junk : Cells) (a : CStr) (ws : List CStr) (is : List Item) (c : Config) (prior : Result) (e : RunEnv)
    (effs : List Eff) (ce : ChildEnv) (p q : Proc) (path : CStr) (argv envp : List CStr) (h : MainDoes posix junk (a :: ws) (.runs c))
    (hs : Scan posix ws is) (hr : run c prior e = .inChild effs) (hroot : p.uid.e = 0)
    (hx : childProcess c ce p = .stop (.execed path argv envp) q) : Finds is p q path envp ∧ path = c.exePath ∧ argv = c.args := by
  obtain ⟨hf, hm, _, henv⟩ := runs_inv hs h
  have hq : Started c ce p q := ⟨_, _, _, hx⟩
  obtain ⟨s', q', h1, h2⟩ := C25_never_returns c ce p
  rw [hx] at h1
  cases h1
  obtain ⟨rfl, rfl, rfl⟩ := h2 _ _ _ rfl
  have hok : ConfigOk c := by
    rcases run_cases c prior e with ⟨_, h⟩ | ⟨_, _, h⟩ | ⟨_, _, _, h⟩ | ⟨_, h, _⟩ | ⟨_, _, _, _, _, _, h⟩ | ⟨_, _, _, _, _, _, h⟩ |
      ⟨_, _, _, _, _, _, h⟩
    case inr.inr.inr.inl => exact h
    all_goals rw [hr] at h; cases h
  have hlim := C14_limits c ce p q hok (means_inRange hf hm) hq
  have hids := C18_each_id c ce p q hroot hq
  have hstr := C20_streams c ce p q hq
  have hsec := C23_profile_enforced c ce p q hq
  obtain ⟨ck, hck, hck'⟩ := hm.check
  obtain ⟨ti, hti, hin⟩ := hm.input
  obtain ⟨tu, hto, hout⟩ := hm.output
  obtain ⟨te, hte, herr⟩ := hm.error
  obtain ⟨u, hu, hu'⟩ := hm.uid
  obtain ⟨g, hg, hg'⟩ := hm.gid
  have hoff : Off .memoryLimitCheckOnly is ↔ c.memoryLimitCheckOnly = 0 := by
    rw [hck']
    constructor
    · intro ho
      have h0 : IntIs .memoryLimitCheckOnly is 0 0 := by
        rcases ho with h | ⟨t, h1, h2⟩
        · exact Or.inr ⟨h, rfl⟩
        · exact Or.inl ⟨t, h1, h2⟩
      rw [if_pos (IntIs.unique hf rfl hck h0)]
    · intro h0
      have : ck = 0 := by
        split at h0
        · assumption
        · cases h0
      subst this
      rcases hck with ⟨t, h1, h2⟩ | ⟨h1, _⟩
      · exact Or.inr ⟨t, h1, h2⟩
      · exact Or.inl h1
  refine ⟨?_, rfl, rfl⟩
  constructor
  · exact hm.exe
  · exact henv
  · exact limitFrom_of hm.cpu (hlim .cpu)
  · intro ho
    have := hlim .as
    simp only [wantedLimit, hoff.1 ho, ne_eq, not_true, false_or] at this
    exact limitFrom_of hm.mem this
  · intro ho
    have := hlim .as
    rw [hoff] at ho
    simpa only [wantedLimit, ho, ne_eq, not_false_eq_true, true_or, if_true] using this
  · have := hlim .stack
    simp only [wantedLimit] at this
    rcases hm.stack with ⟨t, h1, h2⟩ | ⟨h1, h2⟩
    · exact Or.inl ⟨t, _, h1, h2, this⟩
    · rw [h2] at this
      exact Or.inr ⟨h1, this⟩
  · exact limitFrom_of hm.nproc (hlim .nproc)
  · exact limitFrom_of hm.out (hlim .fsize)
  · exact ⟨ti, hti, hstr.1 ti hin⟩
  · exact ⟨tu, hto, hstr.2.1 tu hout⟩
  · exact ⟨te, hte, hstr.2.2.1 te herr⟩
  · exact idFrom_of hf rfl hu (by rw [← hu']; exact hids.1)
  · exact idFrom_of hf rfl hg (by rw [← hg']; exact hids.2.1)
  · have hg2 := hids.2.1
    have hg3 := hids.2.2
    by_cases hk : c.gid = keepId
    · rw [if_pos hk] at hg3
      refine Or.inr ⟨hg3, ?_⟩
      have hr := fine_int hf rfl hg (by decide)
      have hg1 : g = -1 := by
        rw [hg'] at hk
        simp only [IsInt, INT_MIN, INT_MAX] at hr
        unfold castU32 keepId at hk
        omega
      subst hg1
      rcases hg with ⟨t, h1, h2⟩ | ⟨_, h2⟩
      · exact ⟨t, h1, h2⟩
      · cases h2
    · rw [if_neg hk] at hg2 hg3
      rw [hg2]
      exact Or.inl hg3
  · intro h0
    rcases hm.seccomp with ⟨t, h1, _⟩ | ⟨_, h2⟩
    · rw [h0] at h1; cases h1
    · rw [h2] at hsec
      exact hsec.1
  · intro t ht
    rcases hm.seccomp with ⟨t', h1, h2⟩ | ⟨h1, _⟩
    · rw [ht] at h1
      cases h1
      rw [h2] at hsec
      obtain ⟨hn, h | h | h | h | h⟩ := hsec <;> obtain ⟨rfl, hflt⟩ := h <;> exact ⟨by decide, hn, _, hflt⟩
    · rw [ht] at h1; cases h1

/-- A root caller's valid configuration is forked (seen from the child). -/
theorem forks (c : Config) (hc : ConfigOk c) : run c (noResult 0) { sampleEnv 0 with fork := .child } =
    .inChild (logOpenEff { sampleEnv 0 with fork := .child } c.logPath ++ [.forked]) := by
  rcases run_cases c (noResult 0) { sampleEnv 0 with fork := .child } with ⟨h, _⟩ | ⟨_, h, _⟩ | ⟨_, _, h, _⟩ | ⟨_, _, _, h⟩ |
    ⟨_, _, _, h, _⟩ | ⟨_, _, _, h, _⟩ | ⟨_, _, _, h, _⟩
  · exact absurd rfl h
  · exact absurd hc h
  · cases h
  · exact h
  all_goals cases h

/-- C77, the part that holds: command lines with up to 254 `--args`, or without `--env`.
Missing: 255 `--args` together with `--env` (`C77_false`). -/
theorem C77_delivered_partial (posix : Bool) (junk : Cells) (a : CStr) (ws : List CStr) (is : List Item) (c : Config) (prior : Result)
    (e : RunEnv) (effs : List Eff) (ce : ChildEnv) (p q : Proc) (path : CStr) (argv envp : List CStr)
    (h : MainDoes posix junk (a :: ws) (.runs c)) (hs : Scan posix ws is) (hr : run c prior e = .inChild effs) (hroot : p.uid.e = 0)
    (hx : childProcess c ce p = .stop (.execed path argv envp) q) (hn : (given .args is).length ≠ 255 ∨ given .env is = []) :
    Finds is p q path envp ∧ argv = path :: given .args is := by
  obtain ⟨h1, h2, h3⟩ := finds posix junk a ws is c prior e effs ce p q path argv envp h hs hr hroot hx
  refine ⟨h1, ?_⟩
  rw [h2, h3]
  exact C50_arguments_partial posix junk a ws is c h hs hn

/-- C77, settled: all that is asked for is found whatever the command line, but for the arguments; these are found exactly if there are not 255 of them, or no
`--env`. -/
theorem C77_exact (posix : Bool) (junk : Cells) (a : CStr) (ws : List CStr) (is : List Item) (c : Config) (prior : Result)
    (e : RunEnv) (effs : List Eff) (ce : ChildEnv) (p q : Proc) (path : CStr) (argv envp : List CStr)
    (h : MainDoes posix junk (a :: ws) (.runs c)) (hs : Scan posix ws is) (hr : run c prior e = .inChild effs) (hroot : p.uid.e = 0)
    (hx : childProcess c ce p = .stop (.execed path argv envp) q) :
    Finds is p q path envp ∧ (argv = path :: given .args is ↔ (given .args is).length ≠ 255 ∨ given .env is = []) := by
  obtain ⟨h1, h2, h3⟩ := finds posix junk a ws is c prior e effs ce p q path argv envp h hs hr hroot hx
  refine ⟨h1, ?_⟩
  rw [h2, h3]
  exact C50_exact posix junk a ws is c h hs

/-- The hypotheses can be met: the sample line, a memory limit of 64 MB among its words, leads to a started program. -/
example (junk : Cells) : ∃ c q effs path argv envp, MainDoes false junk (c!"j" :: sampleLine) (.runs c) ∧
    run c (noResult 0) { sampleEnv 0 with fork := .child } = .inChild effs ∧ sampleProc.uid.e = 0 ∧
    childProcess c (sampleChild fun _ => false) sampleProc = .stop (.execed path argv envp) q ∧ (given .args sampleItems).length ≠ 255 := by
  obtain ⟨c, hc⟩ := sample_runs false junk c!"j"
  have hd := C49_defaults _ _ _ _ _ c hc (sample_scan false)
  have hmem := (C47_documented_form _ _ _ _ _ c .maxMemory _ c!"64MB" _ hc (sample_scan false) rfl (by decide) intText_64MB).1
  have hcfg : ConfigOk c := by
    refine ⟨Or.inl (hd.cpu (by decide)), Or.inl (hd.real (by decide)), Or.inr ?_, Or.inl (hd.nproc (by decide)),
      Or.inl (hd.out (by decide)), ?_⟩
    · rw [hmem]; decide
    · rw [hd.stack (by decide)]; decide
  obtain ⟨q, hq⟩ := C17_starts c (sampleChild fun _ => false) sampleProc hcfg (by rw [hd.cpu (by decide)]; decide) rfl rfl
    (by rw [hd.seccomp (by decide)]; simp) (fun _ _ => rfl)
  exact ⟨c, q, _, _, _, _, hc, forks c hcfg, rfl, hq, by decide⟩

/-- C77 is false of the code: `judger --exe_path=x --args=y ... --args=y --env=z` with 255 times `--args`. -/
theorem C77_false : ¬C77_full := by
  intro hfull
  have ht := (many_given 255).2.2
  have h0 : ∀ o, o ≠ .exePath → o ≠ .args → o ≠ .env → times o manyItems = 0 := by
    intro o h1 h2 h3
    unfold manyItems
    rw [times, ht, if_neg (Ne.symm h1), if_neg h2, if_neg h3]
  obtain ⟨c, hc⟩ := main_runs (junk := fun _ => none) (a := c!"j") (many_scan false) many_fine
    (h0 _ (by decide) (by decide) (by decide)) (h0 _ (by decide) (by decide) (by decide))
  have hd := C49_defaults _ _ _ _ _ c hc (many_scan false)
  have hcfg : ConfigOk c := by
    refine ⟨Or.inl (hd.cpu (h0 _ (by decide) (by decide) (by decide))), Or.inl (hd.real (h0 _ (by decide) (by decide) (by decide))),
      Or.inl (hd.mem (h0 _ (by decide) (by decide) (by decide))), Or.inl (hd.nproc (h0 _ (by decide) (by decide) (by decide))),
      Or.inl (hd.out (h0 _ (by decide) (by decide) (by decide))), ?_⟩
    rw [hd.stack (h0 _ (by decide) (by decide) (by decide))]; decide
  obtain ⟨q, hq⟩ := C17_starts c (sampleChild fun _ => false) sampleProc hcfg
    (by rw [hd.cpu (h0 _ (by decide) (by decide) (by decide))]; decide) rfl rfl
    (by rw [hd.seccomp (h0 _ (by decide) (by decide) (by decide))]; simp) (fun _ _ => rfl)
  have h1 := (hfull _ _ _ _ _ c _ _ _ _ _ _ _ _ _ hc (many_scan false) (forks c hcfg) rfl hq).2
  have hga : given .args manyItems = List.replicate 255 c!"y" := by
    unfold manyItems; rw [given, if_neg (by decide)]; exact (many_given 255).1
  have hge : given .env manyItems = [c!"z"] := by
    unfold manyItems; rw [given, if_neg (by decide)]; exact (many_given 255).2.1
  have h2 := C50_full_list _ _ _ _ _ c hc (many_scan false) (by rw [hga, List.length_replicate])
  rw [h2, hga, hge] at h1
  exact append_ne _ _ (List.cons.inj h1).2

end Judger
