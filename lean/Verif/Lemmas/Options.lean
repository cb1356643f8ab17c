import Verif.Props.Cli

/-! # Command lines made of `--name=value` words -/

set_option autoImplicit false

namespace Judger

open Judger.Spec Judger.Spec.Cli

/-- One word: the name used, the option meant, the value. -/
structure Entry where
  name : CStr
  opt : Opt
  val : CStr

def Entry.word (e : Entry) : CStr := '-' :: '-' :: (e.name ++ '=' :: e.val)
def Entry.item (e : Entry) : Item := .opt e.opt (some e.val)

/-- The name may be used for the option, and the option takes a value. -/
def Entry.Good (e : Entry) : Prop := Calls e.name e.opt ∧ e.opt.takes ≠ .nothing

theorem scan_entries (posix : Bool) (es : List Entry) (h : ∀ e ∈ es, e.Good) : Scan posix (es.map Entry.word) (es.map Entry.item) := by
  induction es with
  | nil => exact .nil
  | cons e es ih =>
    have he := h e (by simp)
    exact .value e.name e.val e.opt _ _ he.1 he.2 (ih fun e' h' => h e' (by simp [h']))

theorem given_append (o : Opt) (a b : List Item) : given o (a ++ b) = given o a ++ given o b := by
  induction a with
  | nil => rfl
  | cons it a ih =>
    cases it with
    | mistake => simpa [given] using ih
    | opt o' v =>
      cases v with
      | none => simpa [given] using ih
      | some v => simp only [List.cons_append, given, ih]; split <;> simp

/-- The values of an option among the entries. -/
def entryVals (o : Opt) (es : List Entry) : List CStr := given o (es.map Entry.item)

theorem entryVals_append (o : Opt) (a b : List Entry) : entryVals o (a ++ b) = entryVals o a ++ entryVals o b := by
  simp [entryVals, given_append]

theorem entryVals_one (o : Opt) (e : Entry) : entryVals o [e] = if e.opt = o then [e.val] else [] := by
  simp only [entryVals, List.map, Entry.item, given]

theorem times_entries (o : Opt) (es : List Entry) : times o (es.map Entry.item) = (entryVals o es).length := by
  induction es with
  | nil => rfl
  | cons e es ih =>
    simp only [entryVals, List.map, Entry.item, times, given] at ih ⊢
    split <;> simp [ih]

theorem entryVals_list (o o' : Opt) (n : CStr) (ss : List CStr) : entryVals o (ss.map fun s => ⟨n, o', s⟩) = if o' = o then ss else [] := by
  induction ss with
  | nil => simp [entryVals, given]
  | cons s ss ih =>
    have : entryVals o ((s :: ss).map fun s => (⟨n, o', s⟩ : Entry)) = (if o' = o then [s] else []) ++ entryVals o (ss.map fun s => ⟨n, o', s⟩) := by
      rw [← entryVals_one o ⟨n, o', s⟩, ← entryVals_append]; rfl
    rw [this, ih]
    split <;> simp

theorem mem_entryVals {o : Opt} {v : CStr} {es : List Entry} : v ∈ entryVals o es ↔ ∃ e ∈ es, e.opt = o ∧ e.val = v := by
  induction es with
  | nil => simp [entryVals, given]
  | cons e es ih =>
    have : entryVals o (e :: es) = (if e.opt = o then [e.val] else []) ++ entryVals o es := by rw [← entryVals_one, ← entryVals_append]; rfl
    rw [this]
    by_cases h : e.opt = o
    · simp [h, ih, eq_comm]
    · simp [h, ih]

/-- A line of entries with readable integers, not too many of each option, and the executable. -/
theorem fine_entries {es : List Entry} (hf : ∀ e ∈ es, e.val ≠ [])
    (hi : ∀ e ∈ es, e.opt.takes = .int → ∃ n, LooseIntText e.val n ∧ IsInt n) (ho : ∀ o, (entryVals o es).length ≤ o.atMost)
    (hx : entryVals .exePath es ≠ []) : Fine (es.map Entry.item) where
  noMistake := by
    intro h
    obtain ⟨e, _, h⟩ := List.mem_map.mp h
    simp [Entry.item] at h
  filled := by
    intro o v h
    obtain ⟨e, he, h⟩ := List.mem_map.mp h
    simp only [Entry.item, Item.opt.injEq, Option.some.injEq] at h
    rw [← h.2]; exact hf e he
  ints := by
    intro o v h ht
    obtain ⟨e, he, h⟩ := List.mem_map.mp h
    simp only [Entry.item, Item.opt.injEq, Option.some.injEq] at h
    rw [← h.2]; exact hi e he (by rw [h.1]; exact ht)
  often := by intro o; rw [times_entries]; exact ho o
  exe := by rw [times_entries]; exact List.length_pos_iff.mpr hx

theorem entries_noFlag {es : List Entry} (hg : ∀ e ∈ es, e.Good) {o : Opt} (h : o.takes = .nothing) :
    times o (es.map Entry.item) = 0 := by
  rw [times_entries]
  cases hv : entryVals o es with
  | nil => rfl
  | cons v vs =>
    obtain ⟨e, he, h1, _⟩ := mem_entryVals.mp (by rw [hv]; simp : v ∈ entryVals o es)
    exact absurd (h1 ▸ h) (hg e he).2

/-- A fine line that means the configuration runs it. -/
theorem runs_of_means {posix : Bool} {junk : Cells} {a : CStr} {ws : List CStr} {is : List Item} {c : Config} (hs : Scan posix ws is)
    (hf : Fine is) (hh : times .help is = 0) (hv : times .version is = 0) (hm : MeansScalars is c)
    (ha : c.args = c.exePath :: (given .args is ++ if (given .args is).length = 255 then given .env is else []))
    (he : c.env = given .env is) : MainDoes posix junk (a :: ws) (.runs c) := by
  obtain ⟨c', hc'⟩ := main_runs (junk := junk) (a := a) hs hf hh hv
  obtain ⟨_, hm', ha', he'⟩ := runs_inv hs hc'
  have hexe : c.exePath = c'.exePath := by
    have a1 := hm.exe
    rw [hm'.exe] at a1
    simpa using a1.symm
  have : c = c' := MeansScalars.unique hf hm hm' (by rw [ha, ha', hexe]) (by rw [he, he'])
  rw [this]; exact hc'

/-- The entry of an integer parameter that is left out when it is -1. -/
def intEntry (o : Opt) (n : Int) : List Entry := if n ≠ -1 then [⟨o.name, o, showInt n⟩] else []

theorem entryVals_intEntry (o o' : Opt) (n : Int) : entryVals o (intEntry o' n) = if o' = o ∧ n ≠ -1 then [showInt n] else [] := by
  unfold intEntry
  by_cases h : n = -1
  · simp [h, entryVals, given]
  · simp [h, entryVals_one]

theorem intIs_of {o : Opt} {is : List Item} {d n n' : Int} (h : given o is = if n ≠ -1 then [showInt n] else []) (hd : d = n')
    : IntIs o is d (if n = -1 then n' else n) := by
  by_cases hn : n = -1
  · right; rw [if_pos hn]; rw [if_neg (by simpa using hn)] at h; exact ⟨h, hd.symm⟩
  · left; rw [if_neg hn]; rw [if_pos hn] at h; exact ⟨_, h, Or.inl (intText_showInt n)⟩

end Judger
