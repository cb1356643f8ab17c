import Verif.Lemmas.Runner
import Verif.Model.Python
import Verif.Model.Node
import Verif.Spec.Lua

/-!
# C65–C67, C72, C73: the Lua binding; C68: the constants of all bindings
-/

set_option autoImplicit false

namespace Judger

open Judger.Lua Judger.Spec.Lua

/-! ## C65 -/

/-- C65, the full claim: some call gets `run()` to start a process. -/
def C65_full : Prop :=
  ∃ (get : CStr → LuaVal) (c : Config) (prior r : Result) (e : RunEnv) (effs : List Eff), globalJudge get = .runs c ∧
    (run c prior e = .returned r effs ∨ run c prior e = .inChild effs) ∧ Eff.forked ∈ effs

theorem runs_config {get : CStr → LuaVal} {c : Config} (h : globalJudge get = .runs c) :
    c.maxStack = 0 ∧ c.maxCpuTime = castInt (num get c!"max_cpu_time") ∧ c.maxRealTime = castInt (num get c!"max_real_time") ∧
    c.maxMemory = castU32 (num get c!"max_memory") ∧ c.maxProcessNumber = castInt (num get c!"max_process_number") ∧
    c.maxOutputSize = castU32 (num get c!"max_output_size") ∧ c.uid = castU32 (num get c!"uid") ∧ c.gid = castU32 (num get c!"gid") ∧
    c.args = tableStrings (tbl get c!"args") ∧ c.env = tableStrings (tbl get c!"env") ∧ ∀ m ∈ argMask, refused get m = false := by
  unfold globalJudge at h
  cases hf : argMask.find? (refused get) with
  | some m => rw [hf] at h; cases h
  | none =>
    rw [hf] at h
    injection h with h
    subst h
    refine ⟨rfl, rfl, rfl, rfl, rfl, rfl, rfl, rfl, rfl, rfl, ?_⟩
    intro m hm
    have := List.find?_eq_none.mp hf m hm
    simpa using this

/-- C65, exactly: whatever the table and whatever the system does, `run()` reports INVALID_CONFIG (or ROOT_REQUIRED) and starts
nothing. -/
theorem C65_always_rejected (get : CStr → LuaVal) (c : Config) (prior : Result) (e : RunEnv) (h : globalJudge get = .runs c) :
    ∃ r effs, run c prior e = .returned r effs ∧ Eff.forked ∉ effs ∧ r.result = SUCCESS ∧
      r.error = if e.getuid ≠ 0 then ROOT_REQUIRED else INVALID_CONFIG := by
  have hs := (runs_config h).1
  have hrej : configRejected c = true := by
    simp [configRejected, hs]
  unfold run
  by_cases hu : e.getuid ≠ 0
  · rw [if_pos hu, if_pos hu]
    refine ⟨_, _, rfl, ?_, rfl, rfl⟩
    cases hl : e.logOpens <;> cases hk : e.logLocks <;> cases hw : e.logWrites <;>
      simp [logOpenEff, logWriteEff, logCloseEff, hl, hk, hw]
  · rw [if_neg hu, if_neg hu]
    simp only [hrej, if_true]
    refine ⟨_, _, rfl, ?_, rfl, rfl⟩
    cases hl : e.logOpens <;> cases hk : e.logLocks <;> cases hw : e.logWrites <;>
      simp [logOpenEff, logWriteEff, logCloseEff, hl, hk, hw]

/-- C65 is false of the code. -/
theorem C65_false : ¬C65_full := by
  rintro ⟨get, c, prior, r, e, effs, h1, h2, h3⟩
  obtain ⟨r', effs', h4, h5, _⟩ := C65_always_rejected get c prior e h1
  rcases h2 with h2 | h2 <;> rw [h4] at h2
  · injection h2 with _ h2
    exact h5 (h2 ▸ h3)
  · cases h2

/-- A complete call. -/
def luaSample (mem : Int) (args : List (LuaVal × LuaVal)) (key : CStr) : LuaVal :=
  if key ∈ [c!"max_cpu_time", c!"max_real_time", c!"max_process_number", c!"max_output_size"] then .number 1000
  else if key ∈ [c!"uid", c!"gid"] then .number 0
  else if key = c!"max_memory" then .number mem
  else if key ∈ [c!"exe_path", c!"input_path", c!"output_path", c!"error_path", c!"log_path", c!"seccomp_rule_name"] then .string c!"x"
  else if key = c!"args" then .table args
  else if key = c!"env" then .table []
  else .nil

/-! ## C67 -/

/-- Storing the strings of a table from position `size` on. -/
theorem checkStringTable_stores (maxSize : Nat) (entries : List (LuaVal × LuaVal)) : ∀ (size : Nat), size ≤ maxSize →
    (∀ w ∈ (checkStringTable maxSize size entries).1, w.1 < maxSize) ∧
    (∀ k, (checkStringTable maxSize size entries).2 = some k → k ≤ maxSize) := by
  induction entries with
  | nil => intro size h; exact ⟨by simp [checkStringTable], fun k hk => by simp [checkStringTable] at hk; omega⟩
  | cons e es ih =>
    intro size h
    obtain ⟨k, v⟩ := e
    cases v with
    | string s =>
      simp only [checkStringTable]
      by_cases hk : k.is .number = true
      · rw [if_pos hk]
        by_cases hs : size = maxSize
        · rw [if_pos hs]; simp
        · rw [if_neg hs]
          obtain ⟨h1, h2⟩ := ih (size + 1) (by omega)
          refine ⟨?_, h2⟩
          intro w hw
          simp only [List.mem_cons] at hw
          rcases hw with rfl | hw
          · simp only; omega
          · exact h1 w hw
      · rw [if_neg hk]; simp
    | _ => simp [checkStringTable]

/-- C67: every store for a list, accepted or not, is inside the array of 256 pointers. -/
theorem C67_inside (entries : List (LuaVal × LuaVal)) : ∀ w ∈ (tableStores entries).1, w.1 < 256 := by
  have h := checkStringTable_stores 255 entries 0 (by omega)
  intro w hw
  unfold tableStores at hw
  revert hw h
  generalize checkStringTable 255 0 entries = p
  rintro ⟨h1, h2⟩ hw
  obtain ⟨ws, k⟩ := p
  cases k with
  | none =>
    simp only [List.mem_map] at hw
    obtain ⟨x, hx, rfl⟩ := hw
    have := h1 x hx
    simp only; omega
  | some k =>
    simp only [List.mem_append, List.mem_map, List.mem_singleton] at hw
    rcases hw with ⟨x, hx, rfl⟩ | rfl
    · have := h1 x hx
      simp only; omega
    · have := h2 k rfl
      simp only; omega

theorem dup_noNul {s : CStr} (h : '\x00' ∉ s) : dup s = s := by
  unfold dup
  induction s with
  | nil => rfl
  | cons c s ih =>
    simp only [List.mem_cons, not_or] at h
    rw [List.takeWhile_cons, if_pos (by simpa using Ne.symm h.1), ih h.2]

theorem checkStringTable_lists (maxSize : Nat) (entries : List (LuaVal × LuaVal)) (ss : List CStr) (h : Lists entries ss) : ∀ (size : Nat),
    size ≤ maxSize →
    (size + ss.length ≤ maxSize →
      checkStringTable maxSize size entries = (((List.range' size ss.length).zip ss), some (size + ss.length))) ∧
    (maxSize < size + ss.length → (checkStringTable maxSize size entries).2 = none) := by
  induction entries generalizing ss with
  | nil =>
    obtain ⟨h1, _⟩ := h
    have : ss = [] := by simpa using h1.symm
    subst this
    intro size hs
    exact ⟨fun _ => rfl, fun h => by simp at h; omega⟩
  | cons e es ih =>
    obtain ⟨h1, h2, h3⟩ := h
    cases ss with
    | nil => simp at h1
    | cons s ss =>
      simp only [List.map, List.cons.injEq] at h1
      obtain ⟨n, hn⟩ := h2 e (by simp)
      have ih' := ih ss ⟨h1.2, fun e he => h2 e (by simp [he]), fun s hs => h3 s (by simp [hs])⟩
      intro size hs
      have hd : dup s = s := by
        exact dup_noNul (h3 s (by simp))
      have hstep : checkStringTable maxSize size (e :: es) = if size = maxSize then ([], none) else
          ((size, s) :: (checkStringTable maxSize (size + 1) es).1, (checkStringTable maxSize (size + 1) es).2) := by
        obtain ⟨k, v⟩ := e
        simp only at hn h1
        simp only [hn, h1.1, checkStringTable, LuaVal.is, if_true, hd]
      rw [hstep]
      by_cases hm : size = maxSize
      · rw [if_pos hm]
        exact ⟨fun h => by simp at h; omega, fun _ => rfl⟩
      · rw [if_neg hm]
        obtain ⟨i1, i2⟩ := ih' (size + 1) (by omega)
        refine ⟨fun h => ?_, fun h => ?_⟩
        · simp only [List.length_cons] at h
          rw [i1 (by omega)]
          simp only [List.length_cons, List.range'_succ, List.zip_cons_cons]
          congr 2
          omega
        · simp only [List.length_cons] at h
          exact i2 (by omega)

theorem apply_append (cells : Cells) (a b : List (Nat × Option CStr)) : apply cells (a ++ b) = apply (apply cells a) b := by
  induction a generalizing cells with
  | nil => rfl
  | cons w a ih => obtain ⟨i, x⟩ := w; exact ih _

theorem apply_other (cells : Cells) (ws : List (Nat × Option CStr)) (i : Nat) (h : ∀ w ∈ ws, w.1 ≠ i) : apply cells ws i = cells i := by
  induction ws generalizing cells with
  | nil => rfl
  | cons w ws ih =>
    obtain ⟨j, x⟩ := w
    have hj := h (j, x) (by simp)
    rw [apply, ih _ fun w hw => h w (by simp [hw]), if_neg (Ne.symm hj)]

theorem readStrings_stored (ss : List CStr) : ∀ (cells : Cells) (i n : Nat), ss.length < n →
    readStrings (apply cells (((List.range' i ss.length).zip ss).map (fun w => (w.1, some w.2)) ++ [(i + ss.length, none)])) i n = ss := by
  induction ss with
  | nil =>
    intro cells i n h
    cases n with
    | zero => omega
    | succ n => simp [apply, readStrings]
  | cons s ss ih =>
    intro cells i n h
    cases n with
    | zero => omega
    | succ n =>
      simp only [List.length_cons, List.range'_succ, List.zip_cons_cons, List.map_cons, List.cons_append, apply]
      have hx := ih (fun j => if j = i then some s else cells j) (i + 1) n (by simp at h; omega)
      have e : i + 1 + ss.length = i + (ss.length + 1) := by omega
      rw [e] at hx
      rw [readStrings]
      have hi : apply (fun j => if j = i then some s else cells j)
          (((List.range' (i + 1) ss.length).zip ss).map (fun w => (w.1, some w.2)) ++ [(i + (ss.length + 1), none)]) i = some s := by
        rw [apply_other]
        · simp
        · intro w hw
          simp only [List.mem_append, List.mem_map, List.mem_singleton] at hw
          rcases hw with ⟨x, hx, rfl⟩ | rfl
          · have := (List.of_mem_zip (show (x.1, x.2) ∈ _ from hx)).1
            rw [List.mem_range'_1] at this
            simp only; omega
          · simp only; omega
      rw [hi]
      simp only
      rw [hx]

/-- C67: a list of up to 255 strings is accepted, and the array then holds exactly these strings, ended by NULL. -/
theorem C67_accepted (entries : List (LuaVal × LuaVal)) (ss : List CStr) (h : Lists entries ss) (hl : ss.length ≤ 255) :
    (tableStores entries).2 = true ∧ tableStrings entries = ss := by
  have hc := (checkStringTable_lists 255 entries ss h 0 (by omega)).1 (by omega)
  rw [Nat.zero_add] at hc
  have hs : tableStores entries = ((((List.range' 0 ss.length).zip ss).map fun w => (w.1, some w.2)) ++ [(ss.length, none)], true) := by
    unfold tableStores
    rw [show (256 - 1 : Nat) = 255 from rfl, hc]
  refine ⟨by rw [hs], ?_⟩
  unfold tableStrings
  rw [hs]
  have := readStrings_stored ss zeroCells 0 256 (by omega)
  rw [Nat.zero_add] at this
  exact this

/-- C67: a longer list is refused. -/
theorem C67_too_long (entries : List (LuaVal × LuaVal)) (ss : List CStr) (h : Lists entries ss) (hl : 255 < ss.length) :
    (tableStores entries).2 = false := by
  have hc := (checkStringTable_lists 255 entries ss h 0 (by omega)).2 (by omega)
  unfold tableStores
  rw [show (256 - 1 : Nat) = 255 from rfl]
  revert hc
  generalize checkStringTable 255 0 entries = p
  obtain ⟨ws, k⟩ := p
  rintro rfl
  rfl

/-- C67: what is accepted is a list of strings. -/
theorem C67_only_strings (entries : List (LuaVal × LuaVal)) (h : (tableStores entries).2 = true) :
    ∀ e ∈ entries, (∃ n, e.1 = .number n) ∧ ∃ s, e.2 = .string s := by
  have main : ∀ (es : List (LuaVal × LuaVal)) (size : Nat), (checkStringTable 255 size es).2 ≠ none →
      ∀ e ∈ es, (∃ n, e.1 = .number n) ∧ ∃ s, e.2 = .string s := by
    intro es
    induction es with
    | nil => simp
    | cons e es ih =>
      intro size hne
      obtain ⟨k, v⟩ := e
      cases v with
      | string s =>
        simp only [checkStringTable] at hne
        by_cases hk : k.is .number = true
        · rw [if_pos hk] at hne
          by_cases hs : size = 255
          · rw [if_pos hs] at hne; exact absurd rfl hne
          · rw [if_neg hs] at hne
            intro e he
            simp only [List.mem_cons] at he
            rcases he with rfl | he
            · cases k with
              | number n => exact ⟨⟨n, rfl⟩, ⟨s, rfl⟩⟩
              | _ => simp [LuaVal.is] at hk
            · exact ih _ hne e he
        · rw [if_neg hk] at hne; exact absurd rfl hne
      | _ => exact absurd rfl hne
  apply main entries 0
  intro hn
  unfold tableStores at h
  rw [show (256 - 1 : Nat) = 255 from rfl] at h
  revert hn h
  generalize checkStringTable 255 0 entries = p
  obtain ⟨ws, k⟩ := p
  rintro h rfl
  simp at h

example : Lists [(.number 1, .string c!"a"), (.number 2, .string c!"b c")] [c!"a", c!"b c"] := by
  refine ⟨rfl, ?_, by decide⟩
  intro e he
  simp at he
  rcases he with rfl | rfl <;> exact ⟨_, rfl⟩

example : ∃ es ss, Lists es ss ∧ 255 < ss.length :=
  ⟨List.replicate 256 (.number 1, .string c!"a"), List.replicate 256 c!"a", ⟨by rw [List.map_replicate, List.map_replicate],
    fun e he => ⟨1, by rw [(List.mem_replicate.mp he).2]⟩, fun s hs => by rw [(List.mem_replicate.mp hs).2]; decide⟩, by
      rw [List.length_replicate]; omega⟩

/-! ## C66 -/

theorem luaSample_runs (mem : Int) : ∃ c, globalJudge (luaSample mem [(.number 1, .string c!"a")]) = .runs c := by
  have h : argMask.find? (refused (luaSample mem [(.number 1, .string c!"a")])) = none := rfl
  unfold globalJudge
  rw [h]
  exact ⟨_, rfl⟩

/-- C66, the full claim: each numeric field reaches the configuration with its value, whenever its C type can hold it. -/
def C66_full : Prop :=
  ∀ (get : CStr → LuaVal) (c : Config), globalJudge get = .runs c → ∀ f ∈ numericFields, ∀ n, get f.1 = .number n → f.2.2 n → f.2.1 c = n

theorem num_eq {get : CStr → LuaVal} {name : CStr} {n : Int} (h : get name = .number n) : num get name = n := by simp [num, h]

/-- C66, the part that holds: `int` and id fields with every value of their type; the two `long` fields with 0 to 2^32-1.
Missing: negative and larger values of `max_memory` and `max_output_size` (`C66_false`). -/
theorem C66_limits_partial (get : CStr → LuaVal) (c : Config) (h : globalJudge get = .runs c) (f : CStr × (Config → Int) × (Int → Prop))
    (hf : f ∈ numericFields) (n : Int) (hn : get f.1 = .number n) (ht : f.2.2 n)
    (hl : f.1 = c!"max_memory" ∨ f.1 = c!"max_output_size" → 0 ≤ n ∧ n < 4294967296) : f.2.1 c = n := by
  obtain ⟨_, h1, h2, h3, h4, h5, h6, h7, _⟩ := runs_config h
  have hu : 0 ≤ n ∧ n < 4294967296 → castU32 n = n := fun ⟨a, b⟩ => by unfold castU32; omega
  simp only [numericFields, List.mem_cons, List.not_mem_nil, or_false] at hf
  rcases hf with rfl | rfl | rfl | rfl | rfl | rfl | rfl <;> simp only at hn ht hl ⊢
  · rw [h1, num_eq hn, castInt_id n ht]
  · rw [h2, num_eq hn, castInt_id n ht]
  · rw [h3, num_eq hn, hu (hl (Or.inl trivial))]
  · rw [h4, num_eq hn, castInt_id n ht]
  · rw [h5, num_eq hn, hu (hl (Or.inr trivial))]
  · rw [h6, num_eq hn, hu ht]
  · rw [h7, num_eq hn, hu ht]

/-- C66, exactly what happens to the two `long` fields: the value is reduced modulo 2^32, so -1 (UNLIMITED) becomes a limit of
4294967295. -/
theorem C66_long_fields (get : CStr → LuaVal) (c : Config) (h : globalJudge get = .runs c) :
    (∀ n, get c!"max_memory" = .number n → c.maxMemory = n % 4294967296) ∧
    (∀ n, get c!"max_output_size" = .number n → c.maxOutputSize = n % 4294967296) := by
  obtain ⟨_, _, _, h3, _, h5, _⟩ := runs_config h
  exact ⟨fun n hn => by rw [h3, num_eq hn]; rfl, fun n hn => by rw [h5, num_eq hn]; rfl⟩

/-- C66, settled: a number of the type of its field arrives unaltered exactly if the field is not one of the two `long` fields, or the number is between 0 and 2^32-1. -/
theorem C66_exact (get : CStr → LuaVal) (c : Config) (h : globalJudge get = .runs c) (f : CStr × (Config → Int) × (Int → Prop))
    (hf : f ∈ numericFields) (n : Int) (hn : get f.1 = .number n) (ht : f.2.2 n) :
    f.2.1 c = n ↔ (f.1 = c!"max_memory" ∨ f.1 = c!"max_output_size" → 0 ≤ n ∧ n < 4294967296) := by
  refine ⟨fun he hl => ?_, C66_limits_partial get c h f hf n hn ht⟩
  obtain ⟨h1, h2⟩ := C66_long_fields get c h
  simp only [numericFields, List.mem_cons, List.not_mem_nil, or_false] at hf
  rcases hf with rfl | rfl | rfl | rfl | rfl | rfl | rfl <;> simp only at hn he hl <;>
    first
    | (have h3 := h1 n hn; omega)
    | (have h3 := h2 n hn; omega)
    | exact absurd hl (by decide)

/-- With the sample fields and any memory limit: no program is started. -/
example (mem : Int) (prior : Result) (e : RunEnv) : ∃ c r effs, globalJudge (luaSample mem [(.number 1, .string c!"a")]) = .runs c ∧
    run c prior e = .returned r effs ∧ Eff.forked ∉ effs := by
  obtain ⟨c, hc⟩ := luaSample_runs mem
  obtain ⟨r, effs, h1, h2, _⟩ := C65_always_rejected _ c prior e hc
  exact ⟨c, r, effs, hc, h1, h2⟩

example : ∃ c, globalJudge (luaSample 67108864 [(.number 1, .string c!"a")]) = .runs c ∧ c.maxMemory = 67108864 := by
  obtain ⟨c, hc⟩ := luaSample_runs 67108864
  exact ⟨c, hc, by rw [(C66_long_fields _ c hc).1 67108864 rfl]; rfl⟩

/-- C66 is false of the code: -1 for `max_memory`. -/
theorem C66_false : ¬C66_full := by
  intro h
  obtain ⟨c, hc⟩ := luaSample_runs (-1)
  have h1 := h _ c hc (c!"max_memory", (·.maxMemory), IsLong) (by simp [numericFields]) (-1) rfl (by decide)
  have h2 := (C66_long_fields _ c hc).1 (-1) rfl
  simp only at h1
  rw [h1] at h2
  revert h2; decide

/-! ## C72 -/

theorem checkStringTable_accepts (maxSize : Nat) (es : List (LuaVal × LuaVal)) : ∀ size, size ≤ maxSize →
    ((checkStringTable maxSize size es).2 ≠ none ↔
      size + es.length ≤ maxSize ∧ ∀ e ∈ es, (∃ n, e.1 = .number n) ∧ ∃ s, e.2 = .string s) := by
  induction es with
  | nil => intro size h; simp [checkStringTable]; exact h
  | cons e es ih =>
    intro size h
    obtain ⟨k, v⟩ := e
    have hkey : (k.is .number = true) ↔ ∃ n, k = .number n := by
      cases k <;> simp [LuaVal.is]
    cases v with
    | string s =>
      simp only [checkStringTable]
      by_cases hk : k.is .number = true
      · rw [if_pos hk]
        by_cases hs : size = maxSize
        · rw [if_pos hs]
          simp; omega
        · rw [if_neg hs]
          simp only
          rw [ih (size + 1) (by omega)]
          simp only [List.length_cons, List.mem_cons, forall_eq_or_imp]
          constructor
          · rintro ⟨h1, h2⟩
            exact ⟨by omega, ⟨hkey.1 hk, s, rfl⟩, h2⟩
          · rintro ⟨h1, _, h2⟩
            exact ⟨by omega, h2⟩
      · rw [if_neg hk]
        simp only [ne_eq, not_true_eq_false, List.mem_cons, forall_eq_or_imp, false_iff]
        rintro ⟨_, ⟨h1, _⟩, _⟩
        exact hk (hkey.2 h1)
    | _ => simp [checkStringTable]

theorem tableStores_accepts (es : List (LuaVal × LuaVal)) : (tableStores es).2 = true ↔ StringList es := by
  have h := checkStringTable_accepts 255 es 0 (by omega)
  unfold tableStores StringList
  rw [show (256 - 1 : Nat) = 255 from rfl]
  revert h
  generalize checkStringTable 255 0 es = p
  obtain ⟨ws, k⟩ := p
  cases k <;> simp

/-- A field is refused exactly if its value has the wrong type. -/
theorem refused_iff (get : CStr → LuaVal) : ∀ m ∈ argMask, (refused get m = false ↔ FieldOk get m.1) := by
  have ht : ∀ es, (!(tableStores es).2) = false ↔ StringList es := by
    intro es; rw [← tableStores_accepts]; simp
  have hnum : ∀ k, refused get (k, .number, false) = false ↔ ∃ n, get k = .number n := by
    intro k
    unfold refused
    cases get k <;> simp [LuaVal.is]
  have hstr : ∀ k, refused get (k, .string, false) = false ↔ ∃ s, get k = .string s := by
    intro k
    unfold refused
    cases get k <;> simp [LuaVal.is]
  have hnil : ∀ k, refused get (k, .string, true) = false ↔ get k = .nil ∨ ∃ s, get k = .string s := by
    intro k
    unfold refused
    cases get k <;> simp [LuaVal.is, LuaVal.isNil]
  have htbl : ∀ k, refused get (k, .table, false) = false ↔ ∃ es, get k = .table es ∧ StringList es := by
    intro k
    unfold refused
    cases hk : get k with
    | table es =>
      simp [LuaVal.is, ← ht]
    | _ => simp [LuaVal.is]
  have f1 : ∀ k, k ∈ numericFields.map (·.1) → (FieldOk get k ↔ ∃ n, get k = .number n) := by
    intro k hk; unfold FieldOk; rw [if_pos hk]
  have f2 : FieldOk get c!"seccomp_rule_name" ↔ get c!"seccomp_rule_name" = .nil ∨ ∃ s, get c!"seccomp_rule_name" = .string s := by
    unfold FieldOk; rw [if_neg (by decide), if_pos rfl]
  have f3 : ∀ k, k ∉ numericFields.map (·.1) → k ≠ c!"seccomp_rule_name" → k ∈ stringFields.map (·.1) →
      (FieldOk get k ↔ ∃ s, get k = .string s) := by
    intro k h1 h2 h3; unfold FieldOk; rw [if_neg h1, if_neg h2, if_pos h3]
  have f4 : ∀ k, k ∉ numericFields.map (·.1) → k ≠ c!"seccomp_rule_name" → k ∉ stringFields.map (·.1) →
      (FieldOk get k ↔ ∃ es, get k = .table es ∧ StringList es) := by
    intro k h1 h2 h3; unfold FieldOk; rw [if_neg h1, if_neg h2, if_neg h3]
  intro m hm
  simp only [argMask, List.mem_cons, List.not_mem_nil, or_false] at hm
  rcases hm with rfl | rfl | rfl | rfl | rfl | rfl | rfl | rfl | rfl | rfl | rfl | rfl | rfl | rfl | rfl
  · rw [hnum, f1 _ (by decide)]
  · rw [hnum, f1 _ (by decide)]
  · rw [hnum, f1 _ (by decide)]
  · rw [hnum, f1 _ (by decide)]
  · rw [hnum, f1 _ (by decide)]
  · rw [hstr, f3 _ (by decide) (by decide) (by decide)]
  · rw [hstr, f3 _ (by decide) (by decide) (by decide)]
  · rw [hstr, f3 _ (by decide) (by decide) (by decide)]
  · rw [hstr, f3 _ (by decide) (by decide) (by decide)]
  · rw [hstr, f3 _ (by decide) (by decide) (by decide)]
  · rw [hnil, f2]
  · rw [htbl, f4 _ (by decide) (by decide) (by decide)]
  · rw [htbl, f4 _ (by decide) (by decide) (by decide)]
  · rw [hnum, f1 _ (by decide)]
  · rw [hnum, f1 _ (by decide)]

theorem fieldNames_mask : ∀ k, k ∈ fieldNames ↔ ∃ m ∈ argMask, m.1 = k := by
  have h1 : ∀ k ∈ fieldNames, ∃ m ∈ argMask, m.1 = k := by decide
  have h2 : ∀ m ∈ argMask, m.1 ∈ fieldNames := by decide
  exact fun k => ⟨h1 k, by rintro ⟨m, hm, rfl⟩; exact h2 m hm⟩

/-- C72: a table is accepted exactly if every field has a value of the right type. -/
theorem C72_accepted (get : CStr → LuaVal) : (∃ c, globalJudge get = .runs c) ↔ ∀ k ∈ fieldNames, FieldOk get k := by
  constructor
  · rintro ⟨c, h⟩ k hk
    obtain ⟨m, hm, rfl⟩ := (fieldNames_mask k).1 hk
    exact (refused_iff get m hm).1 ((runs_config h).2.2.2.2.2.2.2.2.2.2 m hm)
  · intro h
    unfold globalJudge
    have : argMask.find? (refused get) = none := by
      rw [List.find?_eq_none]
      intro m hm
      rw [(refused_iff get m hm).2 (h m.1 ((fieldNames_mask m.1).2 ⟨m, hm, rfl⟩))]
      simp
    rw [this]
    exact ⟨_, rfl⟩

/-- C72: the error names a field that has a wrong value. -/
theorem C72_error_names (get : CStr → LuaVal) (k : CStr) (h : globalJudge get = .error k) : k ∈ fieldNames ∧ ¬FieldOk get k := by
  unfold globalJudge at h
  cases hf : argMask.find? (refused get) with
  | none => rw [hf] at h; cases h
  | some m =>
    rw [hf] at h
    injection h with h
    subst h
    have hm := List.mem_of_find?_eq_some hf
    refine ⟨(fieldNames_mask _).2 ⟨m, hm, rfl⟩, fun hok => ?_⟩
    have h1 := (refused_iff get m hm).2 hok
    have h2 := List.find?_some hf
    rw [h1] at h2
    simp at h2

/-- C72: strings and lists reach the configuration unchanged, a nil rule name becomes NULL, and no table switches the memory limit to
check-only. -/
theorem C72_strings_reach (get : CStr → LuaVal) (c : Config) (h : globalJudge get = .runs c) :
    (∀ f ∈ stringFields, ∀ s, get f.1 = .string s → '\x00' ∉ s → f.2 c = some s) ∧
    (get c!"seccomp_rule_name" = .nil → c.seccompRuleName = none) ∧
    (∀ f ∈ listFields, ∀ es ss, get f.1 = .table es → Lists es ss → f.2 c = ss) ∧
    c.memoryLimitCheckOnly = 0 := by
  have hok := (C72_accepted get).1 ⟨c, h⟩
  have hstr : ∀ name s, get name = .string s → '\x00' ∉ s → str get name = some s := by
    intro name s hs hn
    simp [str, hs, dup_noNul hn]
  have hlist : ∀ name es ss, FieldOk get name → name ∈ listFields.map (·.1) → get name = .table es → Lists es ss →
      tableStrings (tbl get name) = ss := by
    intro name es ss hf hn hg hl
    have h4 : FieldOk get name ↔ ∃ es, get name = .table es ∧ StringList es := by
      have e1 : ∀ k ∈ listFields.map (·.1), k ∉ numericFields.map (·.1) ∧ k ≠ c!"seccomp_rule_name" ∧ k ∉ stringFields.map (·.1) := by
        decide
      obtain ⟨h1, h2, h3⟩ := e1 name hn
      unfold FieldOk; rw [if_neg h1, if_neg h2, if_neg h3]
    obtain ⟨es', he, hs⟩ := h4.1 hf
    rw [hg] at he
    cases he
    have hlen : ss.length = es.length := by
      have := congrArg List.length hl.1
      simpa using this.symm
    have := (C67_accepted es ss hl (by rw [hlen]; exact hs.1)).2
    simpa [tbl, hg] using this
  unfold globalJudge at h
  cases hf : argMask.find? (refused get) with
  | some m => rw [hf] at h; cases h
  | none =>
    rw [hf] at h
    injection h with h
    subst h
    refine ⟨?_, ?_, ?_, rfl⟩
    · intro f hf s hs hn
      simp only [stringFields, List.mem_cons, List.not_mem_nil, or_false] at hf
      rcases hf with rfl | rfl | rfl | rfl | rfl | rfl <;> simp only at hs ⊢ <;> simp [hstr _ s hs hn]
    · intro hn
      simp [str, hn]
    · intro f hf es ss hg hl
      have hk : f.1 ∈ listFields.map (·.1) := List.mem_map.2 ⟨f, hf, rfl⟩
      have hfn : ∀ k ∈ listFields.map (·.1), k ∈ fieldNames := by decide
      have := hlist f.1 es ss (hok _ (hfn _ hk)) hk hg hl
      simp only [listFields, List.mem_cons, List.not_mem_nil, or_false] at hf
      rcases hf with rfl | rfl
      · exact this
      · exact this

example : ∀ k ∈ fieldNames, FieldOk (luaSample 1000 [(.number 1, .string c!"a")]) k :=
  (C72_accepted _).1 (luaSample_runs 1000)

/-! ## C73 -/

/-- C73, the full claim: a call either raises a Lua error or returns a table that shows the result of `run()` (or is the forked child). -/
def C73_full : Prop :=
  ∀ (args : List LuaVal) (prior : Result) (e : RunEnv),
    call args prior e = .error ∨ call args prior e = .inChild ∨
    ∃ es c r effs t, args.getLast? = some (.table es) ∧ globalJudge (field es) = .runs c ∧ run c prior e = .returned r effs ∧
      call args prior e = .returns t ∧ Shows t r

/-- A table with the fields of `luaSample`. -/
def luaTable : List (LuaVal × LuaVal) :=
  fieldNames.map fun k => (.string k, luaSample 1000 [(.number 1, .string c!"a")] k)

theorem luaTable_runs : ∃ c, globalJudge (field luaTable) = .runs c := by
  have h : argMask.find? (refused (field luaTable)) = none := by decide +kernel
  unfold globalJudge
  rw [h]
  exact ⟨_, rfl⟩

/-- C73, the part that holds: calls with one argument, and all calls that are refused.
Missing: further arguments (`C73_extra_argument_aborts`). -/
theorem C73_call_partial (v : LuaVal) (prior : Result) (e : RunEnv) :
    call [v] prior e = .error ∨ call [v] prior e = .inChild ∨
    ∃ es c r effs t, v = .table es ∧ globalJudge (field es) = .runs c ∧ run c prior e = .returned r effs ∧
      call [v] prior e = .returns t ∧ Shows t r := by
  cases v with
  | table es =>
    cases hg : globalJudge (field es) with
    | error n => left; simp [call, hg]
    | runs c =>
      cases hr : run c prior e with
      | inChild effs => right; left; simp [call, hg, hr]
      | returned r effs =>
        right; right
        exact ⟨es, c, r, effs, resultTable r, rfl, hg, hr, by simp [call, hg, hr], fun k v => Iff.rfl⟩
  | _ => left; rfl

/-- C73, exactly: whatever the system does, an accepted table followed or preceded by a further argument aborts the host. -/
theorem C73_extra_argument_aborts (first : List (LuaVal × LuaVal)) (more : List LuaVal) (es : List (LuaVal × LuaVal)) (c : Config)
    (prior : Result) (e : RunEnv) (h : globalJudge (field es) = .runs c) :
    call (.table first :: more ++ [.table es]) prior e = .abort := by
  obtain ⟨r, effs, hr, _⟩ := C65_always_rejected _ c prior e h
  have h1 : (LuaVal.table first :: more ++ [LuaVal.table es]).head? = some (.table first) := rfl
  have h2 : (LuaVal.table first :: more ++ [LuaVal.table es]).getLast? = some (.table es) := by
    rw [List.getLast?_append]; rfl
  unfold call
  rw [h1, h2]
  simp [h, hr]

/-- C73, settled: whatever the system does, the claim fails for a list of arguments exactly if there are several, the first and the last are tables and the last is
accepted. -/
theorem C73_exact (args : List LuaVal) (prior : Result) (e : RunEnv) :
    (call args prior e = .error ∨ call args prior e = .inChild ∨
      ∃ es c r effs t, args.getLast? = some (.table es) ∧ globalJudge (field es) = .runs c ∧ run c prior e = .returned r effs ∧
        call args prior e = .returns t ∧ Shows t r) ↔
    ¬∃ first more es c, args = .table first :: more ++ [.table es] ∧ globalJudge (field es) = .runs c := by
  constructor
  · rintro h ⟨first, more, es, c, rfl, hg⟩
    have h0 := C73_extra_argument_aborts first more es c prior e hg
    rcases h with h1 | h1 | ⟨_, _, _, _, _, _, _, _, h1, _⟩ <;> rw [h1] at h0 <;> cases h0
  · intro h
    cases args with
    | nil => exact .inl rfl
    | cons v rest =>
      rcases List.eq_nil_or_concat rest with rfl | ⟨more, w, rfl⟩
      · rcases C73_call_partial v prior e with h1 | h1 | ⟨es, c, r, effs, t, rfl, h1⟩
        · exact .inl h1
        · exact .inr (.inl h1)
        · exact .inr (.inr ⟨es, c, r, effs, t, rfl, h1⟩)
      · left
        have h2 : (v :: more.concat w).getLast? = some w := by
          rw [List.concat_eq_append, ← List.cons_append, List.getLast?_append]; rfl
        unfold call
        rw [h2, List.head?_cons]
        cases v with
        | table first =>
          cases w with
          | table es =>
            cases hg : globalJudge (field es) with
            | error n => simp [hg]
            | runs c => exact absurd ⟨first, more, es, c, by simp [List.concat_eq_append], hg⟩ h
          | _ => rfl
        | _ => rfl

/-- C73 is false of the code: `judger.run(t, t)`. -/
theorem C73_false : ¬C73_full := by
  intro hfull
  obtain ⟨c, hc⟩ := luaTable_runs
  let e : RunEnv :=
    { logOpens := true, logLocks := true, logWrites := true, getuid := 0, start := ⟨0, 0⟩, fork := .failed, pthreadOk := true, waitOk := true, status := 0
      usage := ⟨⟨0, 0⟩, 0⟩, finish := ⟨0, 0⟩ }
  let prior : Result := { cpuTime := 0, realTime := 0, memory := 0, signal := 0, exitCode := 0, error := 0, result := 0 }
  have h := C73_extra_argument_aborts luaTable [] luaTable c prior e hc
  rcases hfull _ prior e with h1 | h1 | ⟨_, _, _, _, _, _, _, _, h1, _⟩ <;> rw [h1] at h <;> cases h

/-- C73 with C65: a call with one accepted table never judges anything; the table returned says so in `error` while
`result` is 0. -/
theorem C73_returns_rejection (es : List (LuaVal × LuaVal)) (c : Config) (prior : Result) (e : RunEnv)
    (h : globalJudge (field es) = .runs c) :
    ∃ t, call [.table es] prior e = .returns t ∧ (c!"result", SUCCESS) ∈ t ∧
      (c!"error", if e.getuid ≠ 0 then ROOT_REQUIRED else INVALID_CONFIG) ∈ t := by
  obtain ⟨r, effs, hr, _, h1, h2⟩ := C65_always_rejected _ c prior e h
  refine ⟨resultTable r, by simp [call, h, hr], ?_, ?_⟩
  · rw [← h1]; simp [resultTable]
  · rw [← h2]; simp [resultTable]

/-- The sample table, not as root: `error` is `ROOT_REQUIRED`, `result` 0. -/
example (prior : Result) (e : RunEnv) (he : e.getuid = 1000) :
    ∃ t, call [.table luaTable] prior e = .returns t ∧ (c!"result", 0) ∈ t ∧ (c!"error", -5) ∈ t := by
  obtain ⟨c, hc⟩ := luaTable_runs
  obtain ⟨t, h1, h2, h3⟩ := C73_returns_rejection luaTable c prior e hc
  exact ⟨t, h1, h2, by simpa [he, ROOT_REQUIRED] using h3⟩

example (prior : Result) (e : RunEnv) : call [.table luaTable, .table luaTable] prior e = .abort := by
  obtain ⟨c, hc⟩ := luaTable_runs
  exact C73_extra_argument_aborts luaTable [] luaTable c prior e hc

/-! ## C68 -/

/-- The names and values a binding should export, from runner.h:8-39 and 63-70. -/
def headerConstants : List (CStr × Int) :=
  [(c!"UNLIMITED", UNLIMITED), (c!"VERSION", VERSION),
   (c!"RESULT_SUCCESS", SUCCESS), (c!"RESULT_WRONG_ANSWER", WRONG_ANSWER), (c!"RESULT_CPU_TIME_LIMIT_EXCEEDED", CPU_TIME_LIMIT_EXCEEDED),
   (c!"RESULT_REAL_TIME_LIMIT_EXCEEDED", REAL_TIME_LIMIT_EXCEEDED), (c!"RESULT_MEMORY_LIMIT_EXCEEDED", MEMORY_LIMIT_EXCEEDED),
   (c!"RESULT_RUNTIME_ERROR", RUNTIME_ERROR), (c!"RESULT_SYSTEM_ERROR", SYSTEM_ERROR),
   (c!"ERROR_INVALID_CONFIG", INVALID_CONFIG), (c!"ERROR_FORK_FAILED", FORK_FAILED), (c!"ERROR_PTHREAD_FAILED", PTHREAD_FAILED),
   (c!"ERROR_WAIT_FAILED", WAIT_FAILED), (c!"ERROR_ROOT_REQUIRED", ROOT_REQUIRED), (c!"ERROR_LOAD_SECCOMP_FAILED", LOAD_SECCOMP_FAILED),
   (c!"ERROR_SETRLIMIT_FAILED", SETRLIMIT_FAILED), (c!"ERROR_DUP2_FAILED", DUP2_FAILED), (c!"ERROR_SETUID_FAILED", SETUID_FAILED),
   (c!"ERROR_EXECVE_FAILED", EXECVE_FAILED), (c!"ERROR_SPJ_ERROR", SPJ_ERROR)]

/-- C68: the three bindings export the constants of runner.h (Lua with an underscore before the name). -/
theorem C68_constants :
    (∀ p, p ∈ Py.constants ↔ p ∈ headerConstants) ∧ (∀ p, p ∈ Node.constants ↔ p ∈ headerConstants) ∧
    (∀ p, p ∈ Lua.constants ↔ ∃ q ∈ headerConstants, p = ('_' :: q.1, q.2)) := by
  have hp : Py.constants = headerConstants := by decide
  have hn : Node.constants = headerConstants := by decide
  refine ⟨fun p => by rw [hp], fun p => by rw [hn], ?_⟩
  have h1 : ∀ p ∈ Lua.constants, ∃ q ∈ headerConstants, p = ('_' :: q.1, q.2) := by decide
  have h2 : ∀ q ∈ headerConstants, ('_' :: q.1, q.2) ∈ Lua.constants := by decide
  exact fun p => ⟨h1 p, by rintro ⟨q, hq, rfl⟩; exact h2 q hq⟩

/-- C68: no name has two values. -/
theorem C68_unambiguous : ∀ p ∈ headerConstants, ∀ q ∈ headerConstants, p.1 = q.1 → p.2 = q.2 := by decide

end Judger
