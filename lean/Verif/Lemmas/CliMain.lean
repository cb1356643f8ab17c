import Verif.Lemmas.CliFold

/-! # `main`: from the items on the command line to the decision -/

set_option autoImplicit false

namespace Judger

open Spec.Cli

/-! ## The two arrays -/

theorem storeFrom_get (ss : List CStr) (cells : Cells) (i j : Nat) :
    storeFrom cells i ss j = if i ≤ j ∧ j < i + ss.length then ss[j - i]? else cells j := by
  induction ss generalizing cells i with
  | nil =>
    simp only [storeFrom]
    rw [if_neg (by simp)]
  | cons s ss ih =>
    rw [storeFrom, ih]
    by_cases h : i + 1 ≤ j ∧ j < i + 1 + ss.length
    · rw [if_pos h, if_pos (by simp; omega)]
      have : j - i = (j - (i + 1)) + 1 := by omega
      rw [this]; rfl
    · rw [if_neg h]
      by_cases hj : j = i
      · subst hj
        rw [if_pos (by simp)]
        simp
      · simp only [hj, if_false]
        rw [if_neg (by simp; omega)]

theorem readStrings_eq (cells : Cells) (ss : List CStr) (i n : Nat) (hn : ss.length < n)
    (h1 : ∀ k, k < ss.length → cells (i + k) = ss[k]?) (h2 : cells (i + ss.length) = none) : readStrings cells i n = ss := by
  induction ss generalizing i n with
  | nil =>
    cases n with
    | zero => rfl
    | succ n => simp at h2; simp [readStrings, h2]
  | cons s ss ih =>
    cases n with
    | zero => simp at hn
    | succ n =>
      have h0 := h1 0 (by simp)
      simp at h0
      simp only [readStrings, h0]
      congr 1
      apply ih
      · simp at hn; omega
      · intro k hk
        have := h1 (k + 1) (by simp; omega)
        have e : i + (k + 1) = i + 1 + k := by omega
        rw [e] at this
        simpa using this
      · have e : i + (s :: ss).length = i + 1 + ss.length := by simp; omega
        rwa [e] at h2

theorem fillArrays_get (junk : Cells) (exe : CStr) (args env : List CStr) (j : Nat) : fillArrays junk exe args env j =
    if j = 256 + env.length then none
    else if 256 ≤ j ∧ j < 256 + env.length then env[j - 256]?
    else if j = args.length + 1 then none
    else if j < args.length + 1 then (exe :: args)[j]? else junk j := by
  unfold fillArrays
  simp only [storeNull, storeFrom_get, List.length_cons, Nat.zero_add, Nat.zero_le, true_and, Nat.sub_zero]

/-- The environment is exactly the given one. -/
theorem read_env (junk : Cells) (exe : CStr) (args env : List CStr) (he : env.length ≤ 255) :
    readStrings (fillArrays junk exe args env) 256 256 = env := by
  apply readStrings_eq
  · omega
  · intro k hk
    rw [fillArrays_get, if_neg (by omega), if_pos (by omega), Nat.add_sub_cancel_left]
  · rw [fillArrays_get, if_pos rfl]

/-- The arguments are exactly the given ones, when there are fewer than 255 or no environment. -/
theorem read_args (junk : Cells) (exe : CStr) (args env : List CStr) (ha : args.length ≤ 254 ∨ (args.length = 255 ∧ env = [])) :
    readStrings (fillArrays junk exe args env) 0 512 = exe :: args := by
  apply readStrings_eq
  · simp; omega
  · intro k hk
    simp at hk
    simp only [Nat.zero_add]
    have : k ≠ 256 + env.length := by
      rcases ha with h | ⟨h, h'⟩
      · omega
      · subst h'; simp; omega
    rw [fillArrays_get, if_neg this, if_neg (by omega), if_neg (by omega), if_pos (by omega)]
  · rw [fillArrays_get]
    rcases ha with h | ⟨h, h'⟩
    · rw [if_neg (by simp; omega), if_neg (by simp; omega), if_pos (by simp)]
    · subst h'
      rw [if_pos (by simp; omega)]

/-- With 255 arguments and an environment, the environment is appended to the arguments. -/
theorem read_args_full (junk : Cells) (exe : CStr) (args env : List CStr) (ha : args.length = 255) (hne : env ≠ [])
    (he : env.length ≤ 255) : readStrings (fillArrays junk exe args env) 0 512 = exe :: (args ++ env) := by
  have hpos : 0 < env.length := List.length_pos_iff.mpr hne
  apply readStrings_eq
  · simp; omega
  · intro k hk
    simp at hk
    simp only [Nat.zero_add]
    rw [fillArrays_get, if_neg (by omega)]
    by_cases hk2 : 256 ≤ k
    · rw [if_pos (by omega)]
      have : k = (k - 1) + 1 := by omega
      rw [this, List.getElem?_cons_succ, List.getElem?_append_right (by omega)]
      have e2 : k - 1 + 1 - 256 = k - 1 - args.length := by omega
      rw [e2]
    · rw [if_neg (by omega), if_neg (by omega), if_pos (by omega)]
      cases k with
      | zero => rfl
      | succ k => rw [List.getElem?_cons_succ, List.getElem?_cons_succ, List.getElem?_append_left (by omega)]
  · rw [fillArrays_get, if_pos (by simp; omega)]

/-! ## Values -/

theorem given_length_le (o : Opt) (is : List Item) : (given o is).length ≤ times o is := by
  rw [← (vals_items o is).2, ← (vals_items o is).1]
  exact List.length_filterMap_le _ _

/-- Options with a value have as many values as occurrences. -/
theorem given_length {posix : Bool} {ws : List CStr} {is : List Item} (hs : Scan posix ws is) {o : Opt} (ht : o.takes ≠ .nothing) :
    (given o is).length = times o is := by
  have hw := scan_wf hs
  clear hs
  induction is with
  | nil => rfl
  | cons it is ih =>
    have ih' := ih fun o v hm => hw o v (List.mem_cons_of_mem _ hm)
    cases it with
    | mistake => simpa [given, times] using ih'
    | opt o' v =>
      by_cases h : o' = o
      · subst h
        have := (hw o' v (by simp)).mpr ht
        cases v with
        | none => exact absurd rfl this
        | some v => simp [given, times, ih']
      · cases v <;> simp [given, times, h, ih']

/-- The slot of option `o` after parsing a fine command line. -/
structure SlotIs (o : Opt) (is : List Item) (s : Slot) : Prop where
  count : s.count = times o is
  strs : o.takes = .text → s.strs = given o is
  ints : o.takes = .int → (given o is).map scanIntText = s.ints.map .ok

theorem parse_slots {is : List Item} {evs : List Ev} {rest : List CStr}
    (h : Same evs rest is) (hf : Fine is) (o : Opt) : SlotIs o is ((parseResult maxErrors mainTable evs rest).1 (Opt.ix o)) := by
  have hslot : (parseResult maxErrors mainTable evs rest).1 (Opt.ix o) =
      slotAfter (Opt.entry o) {} (vals (Opt.ix o) (itemOpts is)) := by
    unfold parseResult
    simp only
    rw [slots_fold (mainTable_get o), h.opts]
  have hall : AllOk (Opt.entry o) {} (vals (Opt.ix o) (itemOpts is)) := by
    rw [allOk_iff _ _ _ (by simp), (vals_items o is).1, entry_kind_int]
    refine ⟨by simpa [Opt.entry] using hf.often o, fun ht v hv => ?_⟩
    obtain ⟨o', v', hm', he⟩ := mem_itemOpts.mp (mem_vals.mp hv)
    simp only [Prod.mk.injEq] at he
    have := ix_inj he.1
    subst this
    rw [← he.2] at hm'
    obtain ⟨n, hn⟩ := hf.ints o v hm' ht
    exact ⟨n, (scanIntText_iff v n).mpr hn⟩
  obtain ⟨h1, h2, h3⟩ := slotAfter_ok _ _ _ hall
  rw [hslot]
  refine ⟨by rw [h1, (vals_items o is).1]; simp, fun ht => ?_, fun ht => ?_⟩
  · rw [h2 ((entry_kind_str o).mpr ht), (vals_items o is).2]; rfl
  · obtain ⟨ns, h4, h5⟩ := h3 ((entry_kind_int o).mpr ht)
    rw [h4, ← (vals_items o is).2, h5]; rfl

theorem parse_lit {is : List Item} {evs : List Ev} {rest : List CStr} (h : Same evs rest is) (o : Opt) (ho : o.takes = .nothing) :
    ((parseResult maxErrors mainTable evs rest).1 (Opt.ix o)).count > 0 ↔ 0 < times o is := by
  have hslot : (parseResult maxErrors mainTable evs rest).1 (Opt.ix o) =
      slotAfter (Opt.entry o) {} (vals (Opt.ix o) (itemOpts is)) := by
    unfold parseResult
    simp only
    rw [slots_fold (mainTable_get o), h.opts]
  have hk : (Opt.entry o).kind = .lit ∧ (Opt.entry o).maxcount = 1 := by
    cases o <;> simp [Opt.takes] at ho <;> decide
  rw [hslot, slotAfter_lit _ hk.1 _ _ (by simp), (vals_items o is).1, hk.2]
  simp; omega

theorem list_le_one {α : Type} (l : List α) (h : l.length ≤ 1) : l = [] ∨ ∃ a, l = [a] := by
  match l, h with
  | [], _ => exact Or.inl rfl
  | [a], _ => exact Or.inr ⟨a, rfl⟩

theorem intOr_is {posix : Bool} {ws : List CStr} {is : List Item} (hsc : Scan posix ws is) (hf : Fine is) {o : Opt} {s : Slot}
    (hs : SlotIs o is s) (ht : o.takes = .int) (dflt : Int) : IntIs o is dflt (intOr s dflt) := by
  have hone : o.atMost = 1 := by cases o <;> simp [Opt.takes] at ht <;> rfl
  have hlen := given_length hsc (o := o) (by rw [ht]; simp)
  have hle := hf.often o
  rw [hone] at hle
  have hi := hs.ints ht
  unfold intOr
  rcases list_le_one (given o is) (by omega) with hg | ⟨t, hg⟩
  · right
    refine ⟨hg, ?_⟩
    rw [hg] at hlen
    simp at hlen
    rw [if_neg (by rw [hs.count]; omega)]
  · left
    rw [hg] at hlen
    simp at hlen
    rw [hg] at hi
    cases hints : s.ints with
    | nil => rw [hints] at hi; simp at hi
    | cons n ns =>
      rw [hints] at hi
      simp only [List.map_cons, List.map_nil, List.cons.injEq] at hi
      refine ⟨t, hg, ?_⟩
      rw [if_pos (by rw [hs.count]; omega)]
      exact ((scanIntText_iff t n).mp hi.1).1

theorem text_is {posix : Bool} {ws : List CStr} {is : List Item} (hsc : Scan posix ws is) (hf : Fine is) {o : Opt} {s : Slot}
    (hs : SlotIs o is s) (ht : o.takes = .text) (h1 : o.atMost = 1) :
    (∃ t, given o is = [t] ∧ s.count > 0 ∧ s.strs.head?.getD [] = t) ∨ (given o is = [] ∧ ¬s.count > 0) := by
  have hlen := given_length hsc (o := o) (by rw [ht]; simp)
  have hle := hf.often o
  rw [h1] at hle
  have hi := hs.strs ht
  rcases list_le_one (given o is) (by omega) with hg | ⟨t, hg⟩
  · right
    rw [hg] at hlen
    simp at hlen
    exact ⟨hg, by rw [hs.count]; omega⟩
  · left
    rw [hg] at hlen
    simp at hlen
    exact ⟨t, hg, by rw [hs.count]; omega, by rw [hi, hg]; rfl⟩

theorem strOr_is {posix : Bool} {ws : List CStr} {is : List Item} (hsc : Scan posix ws is) (hf : Fine is) {o : Opt} {s : Slot}
    (hs : SlotIs o is s) (ht : o.takes = .text) (h1 : o.atMost = 1) (dflt : CStr) : TextIs o is dflt (strOr s dflt) := by
  unfold strOr
  rcases text_is hsc hf hs ht h1 with ⟨t, h2, h3, h4⟩ | ⟨h2, h3⟩
  · left; rw [if_pos h3, h4, h2]
  · right; exact ⟨h2, by rw [if_neg h3]⟩

/-- What `main` makes of the values. -/
theorem makeConfig_means {posix : Bool} {ws : List CStr} {is : List Item} (hsc : Scan posix ws is) (hf : Fine is) (junk : Cells)
    (v : Nat → Slot) (hv : ∀ o, SlotIs o is (v (Opt.ix o))) :
    MeansScalars is (makeConfig junk v) ∧
      (makeConfig junk v).args = (makeConfig junk v).exePath ::
        (given .args is ++ if (given .args is).length = 255 then given .env is else []) ∧
      (makeConfig junk v).env = given .env is := by
  have hexe : given .exePath is = [(v 9).strs.head?.getD []] := by
    rcases text_is hsc hf (hv .exePath) rfl rfl with ⟨t, h1, h2, h3⟩ | ⟨h1, h2⟩
    · rw [h1, ← h3]; rfl
    · exfalso
      apply h2
      rw [(hv .exePath).count]; exact hf.exe
  have hargs : (v 13).strs = given .args is := (hv .args).strs rfl
  have henv : (v 14).strs = given .env is := (hv .env).strs rfl
  have la := Nat.le_trans (given_length_le .args is) (hf.often .args)
  have le := Nat.le_trans (given_length_le .env is) (hf.often .env)
  have la' : (given .args is).length ≤ 255 := la
  have le' : (given .env is).length ≤ 255 := le
  refine ⟨?_, ?_, ?_⟩
  · constructor
    · exact intOr_is hsc hf (hv .maxCpuTime) rfl _
    · exact intOr_is hsc hf (hv .maxRealTime) rfl _
    · exact intOr_is hsc hf (hv .maxMemory) rfl _
    · refine ⟨_, intOr_is hsc hf (hv .memoryLimitCheckOnly) rfl 0, ?_⟩
      show (if (v 5).count > 0 then (if (v 5).ints.head?.getD 0 = 0 then (0 : Int) else 1) else 0) = if intOr (v 5) 0 = 0 then 0 else 1
      unfold intOr
      by_cases h : (v 5).count > 0 <;> simp [h]
    · exact intOr_is hsc hf (hv .maxStack) rfl _
    · exact intOr_is hsc hf (hv .maxProcessNumber) rfl _
    · exact intOr_is hsc hf (hv .maxOutputSize) rfl _
    · exact hexe
    · exact ⟨_, strOr_is hsc hf (hv .inputPath) rfl rfl _, rfl⟩
    · exact ⟨_, strOr_is hsc hf (hv .outputPath) rfl rfl _, rfl⟩
    · exact ⟨_, strOr_is hsc hf (hv .errorPath) rfl rfl _, rfl⟩
    · exact strOr_is hsc hf (hv .logPath) rfl rfl _
    · rcases text_is hsc hf (hv .seccompRuleName) rfl rfl with ⟨t, h1, h2, h3⟩ | ⟨h1, h2⟩
      · left
        refine ⟨t, h1, ?_⟩
        show (if (v 16).count > 0 then some ((v 16).strs.head?.getD []) else none) = some t
        have h2' : (v 16).count > 0 := h2
        have h3' : (v 16).strs.head?.getD [] = t := h3
        rw [if_pos h2', h3']
      · right
        refine ⟨h1, ?_⟩
        show (if (v 16).count > 0 then some ((v 16).strs.head?.getD []) else none) = none
        have h2' : ¬(v 16).count > 0 := h2
        rw [if_neg h2']
    · exact ⟨_, intOr_is hsc hf (hv .uid) rfl 65534, rfl⟩
    · exact ⟨_, intOr_is hsc hf (hv .gid) rfl 65534, rfl⟩
  · show readStrings (fillArrays junk ((v 9).strs.head?.getD []) (v 13).strs (v 14).strs) 0 512 = (v 9).strs.head?.getD [] :: _
    rw [hargs, henv]
    by_cases h : (given .args is).length = 255
    · rw [if_pos h]
      by_cases hne : given .env is = []
      · rw [hne, List.append_nil]; exact read_args _ _ _ _ (Or.inr ⟨h, rfl⟩)
      · exact read_args_full _ _ _ _ h hne le'
    · rw [if_neg h, List.append_nil]
      exact read_args _ _ _ _ (Or.inl (by omega))
  · show readStrings (fillArrays junk ((v 9).strs.head?.getD []) (v 13).strs (v 14).strs) 256 256 = _
    rw [hargs, henv]
    exact read_env _ _ _ _ le'

/-! ## The decision -/

/-- What main decides, in the words of the specification. -/
inductive Decides (is : List Item) : MainOut → Prop
  | help : 0 < times .help is → Decides is .help
  | version : times .help is = 0 → 0 < times .version is → Decides is .version
  | errors (recs : List ErrRec) : times .help is = 0 → times .version is = 0 → ¬Fine is → recs ≠ [] → recs.length ≤ maxErrors →
      Decides is (.errors recs)
  | runs (c : Config) : times .help is = 0 → times .version is = 0 → Fine is → MeansScalars is c →
      c.args = c.exePath :: (given .args is ++ if (given .args is).length = 255 then given .env is else []) →
      c.env = given .env is → Decides is (.runs c)

theorem mainDecide_some {posix : Bool} {a : CStr} {ws : List CStr} {is : List Item} (hs : Scan posix ws is) (junk : Cells) :
    ∃ k out, Decides is out ∧ ∀ fuel, mainDecide posix junk (a :: ws) (fuel + k) = some out := by
  obtain ⟨evs, rest, h1, h2⟩ := scanWords_of_scan hs
  have h3 := argParse_scan (posix := posix) (max := maxErrors) mainShort_eq a ws
  have h1' : scanWords posix (longOptions mainTable 0) ws = some (evs, rest) := h1
  rw [h1'] at h3
  obtain ⟨k, h3⟩ := h3
  refine ⟨k, ?_⟩
  have hd : ∀ fuel, mainDecide posix junk (a :: ws) (fuel + k) =
      (if ((parseResult maxErrors mainTable evs rest).1 0).count > 0 then some .help
       else if ((parseResult maxErrors mainTable evs rest).1 1).count > 0 then some .version
       else if (parseResult maxErrors mainTable evs rest).2 ≠ [] then some (.errors (parseResult maxErrors mainTable evs rest).2)
       else some (.runs (makeConfig junk (parseResult maxErrors mainTable evs rest).1))) := by
    intro fuel
    unfold mainDecide
    rw [h3]
  have hh := parse_lit h2 .help rfl
  have hv := parse_lit h2 .version rfl
  by_cases c1 : ((parseResult maxErrors mainTable evs rest).1 0).count > 0
  · exact ⟨.help, .help (hh.mp c1), fun fuel => by rw [hd, if_pos c1]⟩
  · have n1 : times .help is = 0 := by
      exact Nat.eq_zero_of_not_pos fun h => c1 (hh.mpr h)
    by_cases c2 : ((parseResult maxErrors mainTable evs rest).1 1).count > 0
    · exact ⟨.version, .version n1 (hv.mp c2), fun fuel => by rw [hd, if_neg c1, if_pos c2]⟩
    · have n2 : times .version is = 0 := by
        exact Nat.eq_zero_of_not_pos fun h => c2 (hv.mpr h)
      by_cases c3 : (parseResult maxErrors mainTable evs rest).2 ≠ []
      · exact ⟨.errors _, .errors _ n1 n2 (fun hf => c3 ((parse_errs_nil hs h2).mpr hf)) c3 (parseResult_length _ _ _ _),
          fun fuel => by rw [hd, if_neg c1, if_neg c2, if_pos c3]⟩
      · have hf := (parse_errs_nil hs h2).mp (Classical.not_not.mp c3)
        obtain ⟨m1, m2, m3⟩ := makeConfig_means hs hf junk _ (parse_slots h2 hf)
        exact ⟨.runs _, .runs _ n1 n2 hf m1 m2 m3, fun fuel => by rw [hd, if_neg c1, if_neg c2, if_neg c3]⟩

theorem mainDecide_none {posix : Bool} {a : CStr} {ws : List CStr} (hs : ¬∃ is, Scan posix ws is) (junk : Cells) (fuel : Nat) :
    mainDecide posix junk (a :: ws) fuel = none := by
  have h3 := argParse_scan (posix := posix) (max := maxErrors) mainShort_eq a ws
  cases hw : scanWords posix mainLong ws with
  | some r => exact absurd (scan_of_scanWords ws.length ws (Nat.le_refl _) (by rw [hw]; simp)) hs
  | none =>
    have hw' : scanWords posix (longOptions mainTable 0) ws = none := hw
    rw [hw'] at h3
    unfold mainDecide
    rw [h3 fuel]

theorem mainDecide_mono {posix : Bool} {junk : Cells} {argv : List CStr} {fuel k : Nat} {out : MainOut}
    (h : mainDecide posix junk argv fuel = some out) : mainDecide posix junk argv (fuel + k) = some out := by
  unfold mainDecide at *
  unfold argParse at *
  split at h
  · simp at h
  · rename_i v errs hp
    split at hp
    · rename_i hn
      rw [if_pos hn, hp]; exact h
    · rename_i hn
      rw [if_neg hn]
      split at hp
      · simp at hp
      · rename_i p ht
        rw [tagged_mono ht]
        simp only [Option.some.injEq, Prod.mk.injEq] at hp ⊢
        rw [← hp.1, ← hp.2] at h
        exact h

/-- Whatever `main` decides is what the specification says. -/
theorem mainDecide_sound {posix : Bool} {a : CStr} {ws : List CStr} {junk : Cells} {fuel : Nat} {out : MainOut}
    (h : mainDecide posix junk (a :: ws) fuel = some out) : ∃ is, Scan posix ws is ∧ Decides is out := by
  by_cases hs : ∃ is, Scan posix ws is
  · obtain ⟨is, hs⟩ := hs
    obtain ⟨k, out', h1, h2⟩ := mainDecide_some (a := a) hs junk
    have := mainDecide_mono (k := k) h
    rw [h2] at this
    simp only [Option.some.injEq] at this
    subst this
    exact ⟨is, hs, h1⟩
  · rw [mainDecide_none hs] at h; simp at h

end Judger
