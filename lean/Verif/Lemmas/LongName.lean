import Verif.Lemmas.TaggedScan
import Verif.Spec.Cli

/-! # Option names: the table of main.c and the search for long options -/

set_option autoImplicit false

namespace Judger

open Spec.Cli

/-- The options in the order of main.c's table. -/
def allOpts : List Opt :=
  [.help, .version, .maxCpuTime, .maxRealTime, .maxMemory, .memoryLimitCheckOnly, .maxStack, .maxProcessNumber, .maxOutputSize,
    .exePath, .inputPath, .outputPath, .errorPath, .args, .env, .logPath, .seccompRuleName, .uid, .gid]

/-- The index of an option in main.c's table. -/
def Opt.ix : Opt → Nat
  | .help => 0 | .version => 1 | .maxCpuTime => 2 | .maxRealTime => 3 | .maxMemory => 4 | .memoryLimitCheckOnly => 5
  | .maxStack => 6 | .maxProcessNumber => 7 | .maxOutputSize => 8 | .exePath => 9 | .inputPath => 10 | .outputPath => 11
  | .errorPath => 12 | .args => 13 | .env => 14 | .logPath => 15 | .seccompRuleName => 16 | .uid => 17 | .gid => 18

/-- The getopt entry of an option. -/
def Opt.long (o : Opt) : LongOpt :=
  { name := o.name, hasArg := if o.takes = .nothing then 0 else 1, val := Opt.ix o }

theorem mem_allOpts (o : Opt) : o ∈ allOpts := by cases o <;> decide

theorem ix_inj {o o' : Opt} (h : Opt.ix o = Opt.ix o') : o = o' := by
  revert h; cases o <;> cases o' <;> decide

theorem mainLong_eq : longOptions mainTable 0 = allOpts.map Opt.long := by decide

theorem mainShort_eq : shortOptions mainTable = [':'] := by decide

/-- main.c's table has no untagged entry, as `untagged` assumes. -/
theorem mainTable_tagged : untaggedEntries mainTable = [] := by decide

theorem name_noEq (o : Opt) : '=' ∉ o.name := by cases o <;> decide

theorem name_ne_nil (o : Opt) : o.name ≠ [] := by cases o <;> decide

theorem name_inj {o o' : Opt} (h : o.name = o'.name) : o = o' := by
  revert h; cases o <;> cases o' <;> decide

/-- No option's name starts with another's. -/
theorem name_prefix {o o' : Opt} (h : o.name <+: o'.name) : o' = o := by
  have h' : o.name.isPrefixOf o'.name = true := List.isPrefixOf_iff_prefix.mpr h
  revert h'; clear h
  cases o <;> cases o' <;> decide

theorem calls_iff {n : CStr} {o : Opt} : Calls n o ↔ n <+: o.name ∧ ∀ o', n <+: o'.name → o' = o := by
  constructor
  · rintro (rfl | h)
    · exact ⟨List.prefix_rfl, fun o' h => name_prefix h⟩
    · exact h
  · exact Or.inr

theorem Calls.unique {n : CStr} {o o' : Opt} (h : Calls n o) (h' : Calls n o') : o' = o :=
  (calls_iff.mp h).2 o' (calls_iff.mp h').1

theorem Calls.noEq {n : CStr} {o : Opt} (h : Calls n o) : '=' ∉ n := fun hm =>
  name_noEq o ((calls_iff.mp h).1.subset hm)

theorem Calls.ne_nil {n : CStr} {o : Opt} (h : Calls n o) : n ≠ [] := by
  rintro rfl
  have h1 := (calls_iff.mp h).2 .help (List.nil_prefix)
  have h2 := (calls_iff.mp h).2 .version (List.nil_prefix)
  rw [← h1] at h2
  exact absurd h2 (by decide)

/-! ## `strchr` and the name part -/

theorem strchr_none {s : CStr} {c : Char} : strchr s c = none ↔ c ∉ s := by
  induction s with
  | nil => simp [strchr]
  | cons x r ih =>
    by_cases h : x = c
    · simp [strchr, h]
    · simp [strchr, h, ih, Ne.symm h]

theorem strchr_split {n v : CStr} {c : Char} (h : c ∉ n) : strchr (n ++ c :: v) c = some (c :: v) := by
  induction n with
  | nil => simp [strchr]
  | cons x r ih =>
    simp at h
    have : x ≠ c := fun e => h.1 e.symm
    simp [strchr, this, ih h.2]

theorem strchr_some {s r : CStr} {c : Char} (h : strchr s c = some r) : ∃ n v, c ∉ n ∧ s = n ++ c :: v ∧ r = c :: v := by
  induction s with
  | nil => simp [strchr] at h
  | cons x t ih =>
    by_cases hx : x = c
    · subst hx
      simp [strchr] at h
      exact ⟨[], t, by simp, rfl, h.symm⟩
    · simp [strchr, hx] at h
      obtain ⟨n, v, h1, h2, h3⟩ := ih h
      refine ⟨x :: n, v, ?_, by simp [h2], h3⟩
      simp [h1]; exact fun e => hx e.symm

/-! ## The search -/

section Search

variable (n : CStr)

/-- The search in terms of the options whose name starts with `n`. -/
theorem findLong_spec (cur : CStr) (hc : cur.take n.length = n) (os : List Opt) (f : Found) (hf : f.exact = false) :
    (∀ o, n = o.name → o ∈ os → (findLong cur n.length (os.map Opt.long) f).exact = true ∧
        (findLong cur n.length (os.map Opt.long) f).matched = some (Opt.long o)) ∧
    ((∀ o ∈ os, n ≠ o.name) →
      (findLong cur n.length (os.map Opt.long) f).exact = false ∧
      (∀ m, f.matched = some (Opt.long m) →
        (findLong cur n.length (os.map Opt.long) f).matched = some (Opt.long m) ∧
        ((findLong cur n.length (os.map Opt.long) f).second = true ↔
          f.second = true ∨ ∃ o ∈ os, n <+: o.name ∧ o ≠ m)) ∧
      (f.matched = none →
        (findLong cur n.length (os.map Opt.long) f).matched = ((os.filter fun o => n.isPrefixOf o.name).head?).map Opt.long ∧
        ((findLong cur n.length (os.map Opt.long) f).second = true ↔ f.second = true ∨
          ∃ m o, (os.filter fun o => n.isPrefixOf o.name).head? = some m ∧ o ∈ os ∧ n <+: o.name ∧ o ≠ m))) := by
  induction os generalizing f with
  | nil =>
    refine ⟨by simp, fun _ => ⟨by simp [findLong, hf], ?_, ?_⟩⟩
    · intro m hm; simp [findLong, hm]
    · intro hm; simp [findLong, hm]
  | cons o os ih =>
    have hs : strncmpEq cur (Opt.long o).name n.length = n.isPrefixOf o.name := by
      simp [strncmpEq, hc, Opt.long]
    by_cases hp : n.isPrefixOf o.name = true
    · have hp' : n <+: o.name := List.isPrefixOf_iff_prefix.mp hp
      by_cases hl : (Opt.long o).name.length = n.length
      · have hname : n = o.name := hp'.eq_of_length (by simpa [Opt.long] using hl.symm)
        have hfl : findLong cur n.length ((o :: os).map Opt.long) f = { f with matched := some (Opt.long o), exact := true } := by
          simp only [List.map_cons, findLong, hs, hp, hl]
          simp
        rw [hfl]
        refine ⟨fun o' ho' _ => ⟨rfl, ?_⟩, fun hne => absurd hname (hne o (by simp))⟩
        have : o' = o := name_inj (ho'.symm.trans hname)
        rw [this]
      · have hne : n ≠ o.name := fun h => hl (by simp [Opt.long, ← h])
        cases hm : f.matched with
        | none =>
          have hfl : findLong cur n.length ((o :: os).map Opt.long) f =
              findLong cur n.length (os.map Opt.long) { f with matched := some (Opt.long o) } := by
            simp only [List.map_cons, findLong, hs, hp, hl, hm]
            simp
          rw [hfl]
          obtain ⟨i1, i2⟩ := ih { f with matched := some (Opt.long o) } hf
          refine ⟨fun o' ho' hm' => ?_, fun hall => ?_⟩
          · rcases List.mem_cons.mp hm' with rfl | hm'
            · exact absurd ho' hne
            · exact i1 o' ho' hm'
          · obtain ⟨j1, j2, _⟩ := i2 (fun o' ho' => hall o' (by simp [ho']))
            obtain ⟨k1, k2⟩ := j2 o rfl
            refine ⟨j1, by simp, fun _ => ⟨?_, ?_⟩⟩
            · rw [k1]; simp [hp]
            · rw [k2]
              simp only [List.filter_cons, hp, if_true, List.head?_cons, List.mem_cons]
              constructor
              · rintro (h | ⟨x, hx, hx1, hx2⟩)
                · exact Or.inl h
                · exact Or.inr ⟨o, x, rfl, Or.inr hx, hx1, hx2⟩
              · rintro (h | ⟨m, x, hm1, hx, hx1, hx2⟩)
                · exact Or.inl h
                · right
                  simp at hm1; subst hm1
                  rcases hx with rfl | hx
                  · exact absurd rfl hx2
                  · exact ⟨x, hx, hx1, hx2⟩
        | some m =>
          by_cases hd : (Opt.long o).hasArg ≠ m.hasArg ∨ (Opt.long o).val ≠ m.val
          · have hfl : findLong cur n.length ((o :: os).map Opt.long) f =
                findLong cur n.length (os.map Opt.long) { f with second := true } := by
              simp only [List.map_cons, findLong, hs, hp, hl, hm]
              simp only [Bool.not_true, Bool.false_eq_true, if_false, if_pos hd]
            rw [hfl]
            obtain ⟨i1, i2⟩ := ih { f with second := true } hf
            refine ⟨fun o' ho' hm' => ?_, fun hall => ?_⟩
            · rcases List.mem_cons.mp hm' with rfl | hm'
              · exact absurd ho' hne
              · exact i1 o' ho' hm'
            · obtain ⟨j1, j2, _⟩ := i2 (fun o' ho' => hall o' (by simp [ho']))
              refine ⟨j1, fun m' hm' => ?_, by simp⟩
              simp at hm'; subst hm'
              obtain ⟨k1, k2⟩ := j2 m' hm
              refine ⟨k1, ?_⟩
              rw [k2]
              simp only [true_or, true_iff]
              refine Or.inr ⟨o, by simp, hp', ?_⟩
              rintro rfl
              simp at hd
          · have hfl : findLong cur n.length ((o :: os).map Opt.long) f = findLong cur n.length (os.map Opt.long) f := by
              simp only [List.map_cons, findLong, hs, hp, hl, hm]
              simp only [Bool.not_true, Bool.false_eq_true, if_false, if_neg hd]
            rw [hfl]
            obtain ⟨i1, i2⟩ := ih f hf
            refine ⟨fun o' ho' hm' => ?_, fun hall => ?_⟩
            · rcases List.mem_cons.mp hm' with rfl | hm'
              · exact absurd ho' hne
              · exact i1 o' ho' hm'
            · obtain ⟨j1, j2, _⟩ := i2 (fun o' ho' => hall o' (by simp [ho']))
              refine ⟨j1, fun m' hm' => ?_, by simp⟩
              simp at hm'; subst hm'
              obtain ⟨k1, k2⟩ := j2 m' hm
              refine ⟨k1, ?_⟩
              rw [k2]
              have hom : o = m' := by
                apply ix_inj
                simp [Opt.long] at hd
                exact hd.2
              subst hom
              constructor
              · rintro (h | ⟨x, hx, hx1, hx2⟩)
                · exact Or.inl h
                · exact Or.inr ⟨x, by simp [hx], hx1, hx2⟩
              · rintro (h | ⟨x, hx, hx1, hx2⟩)
                · exact Or.inl h
                · rcases List.mem_cons.mp hx with rfl | hx
                  · exact absurd rfl hx2
                  · exact Or.inr ⟨x, hx, hx1, hx2⟩
    · have hpf : n.isPrefixOf o.name = false := Bool.eq_false_iff.mpr hp
      have hnp : ¬n <+: o.name := fun h => hp (List.isPrefixOf_iff_prefix.mpr h)
      have hne : n ≠ o.name := fun h => hnp (h ▸ List.prefix_rfl)
      have hfl : findLong cur n.length ((o :: os).map Opt.long) f = findLong cur n.length (os.map Opt.long) f := by
        simp only [List.map_cons, findLong, hs, hpf]
        simp
      rw [hfl]
      obtain ⟨i1, i2⟩ := ih f hf
      refine ⟨fun o' ho' hm' => ?_, fun hall => ?_⟩
      · rcases List.mem_cons.mp hm' with rfl | hm'
        · exact absurd ho' hne
        · exact i1 o' ho' hm'
      · obtain ⟨j1, j2, j3⟩ := i2 (fun o' ho' => hall o' (by simp [ho']))
        refine ⟨j1, fun m' hm' => ?_, fun hm' => ?_⟩
        · obtain ⟨k1, k2⟩ := j2 m' hm'
          refine ⟨k1, ?_⟩
          rw [k2]
          constructor
          · rintro (h | ⟨x, hx, hx1, hx2⟩)
            · exact Or.inl h
            · exact Or.inr ⟨x, by simp [hx], hx1, hx2⟩
          · rintro (h | ⟨x, hx, hx1, hx2⟩)
            · exact Or.inl h
            · rcases List.mem_cons.mp hx with rfl | hx
              · exact absurd hx1 hnp
              · exact Or.inr ⟨x, hx, hx1, hx2⟩
        · obtain ⟨k1, k2⟩ := j3 hm'
          simp only [List.filter_cons, hpf, Bool.false_eq_true, if_false]
          refine ⟨k1, ?_⟩
          rw [k2]
          constructor
          · rintro (h | ⟨m, x, hm1, hx, hx1, hx2⟩)
            · exact Or.inl h
            · exact Or.inr ⟨m, x, hm1, by simp [hx], hx1, hx2⟩
          · rintro (h | ⟨m, x, hm1, hx, hx1, hx2⟩)
            · exact Or.inl h
            · rcases List.mem_cons.mp hx with rfl | hx
              · exact absurd hx1 hnp
              · exact Or.inr ⟨m, x, hm1, hx, hx1, hx2⟩

end Search

/-- The search for a name finds exactly the option it calls. -/
theorem findLong_calls (cur n : CStr) (hc : cur.take n.length = n) :
    let f := findLong cur n.length (longOptions mainTable 0) { matched := none, exact := false, second := false }
    (∀ o, Calls n o → (!f.exact && f.second) = false ∧ f.matched = some (Opt.long o)) ∧
    ((∀ o, ¬Calls n o) → (!f.exact && f.second) = true ∨ f.matched = none) := by
  rw [mainLong_eq]
  obtain ⟨h1, h2⟩ := findLong_spec n cur hc allOpts { matched := none, exact := false, second := false } rfl
  refine ⟨fun o ho => ?_, fun hno => ?_⟩
  · by_cases he : n = o.name
    · obtain ⟨a, b⟩ := h1 o he (mem_allOpts o)
      simp [a, b]
    · have hall : ∀ o' ∈ allOpts, n ≠ o'.name := by
        intro o' _ h
        have : o' = o := (calls_iff.mp ho).2 o' (h ▸ List.prefix_rfl)
        exact he (this ▸ h)
      obtain ⟨a, _, b⟩ := h2 hall
      obtain ⟨c, d⟩ := b rfl
      have hmem : o ∈ allOpts.filter fun o => n.isPrefixOf o.name :=
        List.mem_filter.mpr ⟨mem_allOpts o, List.isPrefixOf_iff_prefix.mpr (calls_iff.mp ho).1⟩
      have hhead : (allOpts.filter fun o => n.isPrefixOf o.name).head? = some o := by
        cases hl : allOpts.filter fun o => n.isPrefixOf o.name with
        | nil => rw [hl] at hmem; simp at hmem
        | cons x xs =>
          have hx : x ∈ allOpts.filter fun o => n.isPrefixOf o.name := by rw [hl]; simp
          have := (calls_iff.mp ho).2 x (List.isPrefixOf_iff_prefix.mp (List.mem_filter.mp hx).2)
          simp [this]
      refine ⟨?_, by rw [c, hhead]; rfl⟩
      cases hsec : (findLong cur n.length (allOpts.map Opt.long) { matched := none, exact := false, second := false }).second with
      | false => simp
      | true =>
        exfalso
        rcases d.mp hsec with h | ⟨m, x, hm, _, hx, hxm⟩
        · simp at h
        · rw [hhead] at hm; simp at hm; subst hm
          exact hxm ((calls_iff.mp ho).2 x hx)
  · have hall : ∀ o' ∈ allOpts, n ≠ o'.name := fun o' _ h => hno o' (Or.inl h)
    obtain ⟨a, _, b⟩ := h2 hall
    obtain ⟨c, d⟩ := b rfl
    cases hl : (allOpts.filter fun o => n.isPrefixOf o.name).head? with
    | none => right; rw [c, hl]; rfl
    | some m =>
      left
      have hm : m ∈ allOpts.filter fun o => n.isPrefixOf o.name := List.mem_of_mem_head? hl
      have hmp : n <+: m.name := List.isPrefixOf_iff_prefix.mp (List.mem_filter.mp hm).2
      have : ¬∀ o', n <+: o'.name → o' = m := fun h => hno m (Or.inr ⟨hmp, h⟩)
      obtain ⟨o', ho', hne⟩ : ∃ o', n <+: o'.name ∧ o' ≠ m := by
        apply Classical.byContradiction
        intro hno'
        exact this fun o' h => Classical.byContradiction fun hne => hno' ⟨o', h, hne⟩
      have := d.mpr (Or.inr ⟨m, o', hl, mem_allOpts o', ho', hne⟩)
      rw [a, this]; rfl

end Judger
