import Verif.Lemmas.CliMain
import Verif.Lemmas.JsonText
import Verif.Props.Child

/-!
# C19, C47–C58, C70: the command line

Every theorem holds for every program name, every word list, with and without POSIXLY_CORRECT (`posix`), and whatever the
configuration's arrays contained before (`junk`).
-/

set_option autoImplicit false

namespace Judger

open Judger.Spec Judger.Spec.Cli

/-- `main` finishes reading the command line `argv` and goes on to do `out`. -/
def MainDoes (posix : Bool) (junk : Cells) (argv : List CStr) (out : MainOut) : Prop :=
  ∃ fuel, mainDecide posix junk argv fuel = some out

/-! ## The meaning of a command line -/

section
variable {posix : Bool} {junk : Cells} {a : CStr} {ws : List CStr} {is : List Item}

theorem MainDoes.unique {argv : List CStr} {out out' : MainOut} (h : MainDoes posix junk argv out)
    (h' : MainDoes posix junk argv out') : out' = out := by
  obtain ⟨f, h⟩ := h
  obtain ⟨f', h'⟩ := h'
  have h1 := mainDecide_mono (k := f') h
  have h2 := mainDecide_mono (k := f) h'
  rw [Nat.add_comm] at h2
  rw [h1] at h2
  simp only [Option.some.injEq] at h2
  exact h2.symm

/-- `main` does what the items say. -/
theorem main_decides {out : MainOut} (hs : Scan posix ws is) (h : MainDoes posix junk (a :: ws) out) : Decides is out := by
  obtain ⟨k, out', h1, h2⟩ := mainDecide_some (a := a) hs junk
  have : MainDoes posix junk (a :: ws) out' := ⟨0 + k, h2 0⟩
  rw [← h.unique this]; exact h1

theorem main_exists (hs : Scan posix ws is) : ∃ out, MainDoes posix junk (a :: ws) out ∧ Decides is out := by
  obtain ⟨k, out, h1, h2⟩ := mainDecide_some (a := a) hs junk
  exact ⟨out, ⟨0 + k, h2 0⟩, h1⟩

theorem main_scan {out : MainOut} (h : MainDoes posix junk (a :: ws) out) : ∃ is, Scan posix ws is ∧ Decides is out := by
  obtain ⟨f, h⟩ := h
  exact mainDecide_sound h

/-- A fine command line without `--help` and `--version` is run. -/
theorem main_runs (hs : Scan posix ws is) (hf : Fine is) (hh : times .help is = 0) (hv : times .version is = 0) :
    ∃ c, MainDoes posix junk (a :: ws) (.runs c) := by
  obtain ⟨out, h1, h2⟩ := main_exists (junk := junk) (a := a) hs
  cases h2 with
  | help h => omega
  | version _ h => omega
  | errors recs _ _ h => exact absurd hf h
  | runs c => exact ⟨c, h1⟩

theorem runs_inv {c : Config} (hs : Scan posix ws is) (h : MainDoes posix junk (a :: ws) (.runs c)) :
    Fine is ∧ MeansScalars is c ∧
      c.args = c.exePath :: (given .args is ++ if (given .args is).length = 255 then given .env is else []) ∧
      c.env = given .env is := by
  have := main_decides hs h
  cases this with
  | runs _ _ _ hf hm ha he => exact ⟨hf, hm, ha, he⟩
end

theorem IntIs.unique {is : List Item} (hf : Fine is) {o : Opt} (ht : o.takes = .int) {d n m : Int} (h : IntIs o is d n)
    (h' : IntIs o is d m) : n = m := by
  rcases h with ⟨t, h1, h2⟩ | ⟨h1, h2⟩ <;> rcases h' with ⟨t', h1', h2'⟩ | ⟨h1', h2'⟩
  · rw [h1] at h1'
    simp only [List.cons.injEq, and_true] at h1'
    subst h1'
    have hmem : ∀ is : List Item, t ∈ given o is → Item.opt o (some t) ∈ is := by
      intro is
      induction is with
      | nil => simp [given]
      | cons it is ih =>
        cases it with
        | mistake => simpa [given] using ih
        | opt o' v =>
          cases v with
          | none => simpa [given] using ih
          | some v =>
            simp only [given]
            split
            · rename_i ho
              subst ho
              intro hm
              simp at hm
              rcases hm with rfl | hm
              · simp
              · exact List.mem_cons_of_mem _ (ih hm)
            · intro hm; exact List.mem_cons_of_mem _ (ih hm)
    obtain ⟨k, hk, hki⟩ := hf.ints o t (hmem is (by rw [h1]; simp)) ht
    rw [loose_unique hk hki h2, loose_unique hk hki h2']
  · rw [h1] at h1'; simp at h1'
  · rw [h1] at h1'; simp at h1'
  · rw [h2, h2']

theorem TextIs.unique {is : List Item} {o : Opt} {d n m : CStr} (h : TextIs o is d n) (h' : TextIs o is d m) : n = m := by
  rcases h with h1 | ⟨h1, h2⟩ <;> rcases h' with h1' | ⟨h1', h2'⟩
  · rw [h1] at h1'; simpa using h1'
  · rw [h1] at h1'; simp at h1'
  · rw [h1] at h1'; simp at h1'
  · rw [h2, h2']

/-! ### A sample -/

/-- `--exe_path=/bin/ls --max_mem 64MB --args=-l` -/
def sampleLine : List CStr := [c!"--exe_path=/bin/ls", c!"--max_mem", c!"64MB", c!"--args=-l"]

def sampleItems : List Item := [.opt .exePath (some c!"/bin/ls"), .opt .maxMemory (some c!"64MB"), .opt .args (some c!"-l")]

theorem calls_full (o : Opt) : Calls o.name o := Or.inl rfl

theorem calls_of_all {n : CStr} {o : Opt} (h : n.isPrefixOf o.name = true)
    (h' : ∀ o' ∈ allOpts, n.isPrefixOf o'.name = true → o' = o) : Calls n o :=
  Or.inr ⟨List.isPrefixOf_iff_prefix.mp h, fun o' ho => h' o' (mem_allOpts o') (List.isPrefixOf_iff_prefix.mpr ho)⟩

theorem sample_scan (posix : Bool) : Scan posix sampleLine sampleItems :=
  .value c!"exe_path" c!"/bin/ls" .exePath _ _ (calls_full .exePath) (by decide)
    (.spaced c!"max_mem" c!"64MB" .maxMemory _ _ (calls_of_all (by decide) (by decide)) (by decide)
      (.value c!"args" c!"-l" .args _ _ (calls_full .args) (by decide) .nil))

theorem loose_of_ok {t : CStr} {n : Int} (h : scanIntText t = .ok n) : LooseIntText t n ∧ IsInt n := (scanIntText_iff t n).mp h

theorem intText_64MB : IntText c!"64MB" 67108864 := by
  have h6 : digit? '6' = some 6 := rfl
  have h4 : digit? '4' = some 4 := rfl
  have hb : Blank [] := by intro c hc; simp at hc
  exact ⟨[], [], [], c!"64", c!"MB", [], 1, 10, 64, 1048576, rfl, hb, hb, Or.inl ⟨rfl, rfl⟩, Or.inl ⟨rfl, rfl⟩,
    .more c!"6" 6 '4' 4 (.one '6' 6 h6 (by decide)) h4 (by decide), Or.inr (Or.inr (Or.inl ⟨by decide, rfl⟩)), by decide⟩

theorem sample_fine : Fine sampleItems where
  noMistake := by decide
  filled := by
    intro o v h
    simp [sampleItems] at h
    rcases h with ⟨_, rfl⟩ | ⟨_, rfl⟩ | ⟨_, rfl⟩ <;> decide
  ints := by
    intro o v h ht
    simp [sampleItems] at h
    rcases h with ⟨rfl, rfl⟩ | ⟨rfl, rfl⟩ | ⟨rfl, rfl⟩
    · simp [Opt.takes] at ht
    · exact ⟨67108864, Or.inl intText_64MB, by decide⟩
    · simp [Opt.takes] at ht
  often := by intro o; cases o <;> decide
  exe := by decide

theorem sample_runs (posix : Bool) (junk : Cells) (a : CStr) : ∃ c, MainDoes posix junk (a :: sampleLine) (.runs c) :=
  main_runs (sample_scan posix) sample_fine (by decide) (by decide)

/-! ## C47 -/

/-- C47, the full claim: on an accepted command line every integer option has the value of its text. -/
def C47_full : Prop :=
  ∀ (posix : Bool) (junk : Cells) (a : CStr) (ws : List CStr) (is : List Item) (c : Config) (o : Opt) (f : Config → Int) (t : CStr),
    MainDoes posix junk (a :: ws) (.runs c) → Scan posix ws is → intField o = some f → given o is = [t] → IntText t (f c) ∧ IsInt (f c)

theorem intIs_isInt {is : List Item} (hf : Fine is) {o : Opt} (ht : o.takes = .int) {d n : Int} (h : IntIs o is d n) {t : CStr}
    (hg : given o is = [t]) : LooseIntText t n ∧ IsInt n := by
  rcases h with ⟨t', h1, h2⟩ | ⟨h1, h2⟩
  · rw [hg] at h1
    simp only [List.cons.injEq, and_true] at h1
    rw [← h1] at h2
    refine ⟨h2, ?_⟩
    have hmem : ∀ is : List Item, t ∈ given o is → ∃ v, v = t ∧ Item.opt o (some v) ∈ is := by
      intro is
      induction is with
      | nil => simp [given]
      | cons it is ih =>
        cases it with
        | mistake => simpa [given] using ih
        | opt o' v =>
          cases v with
          | none => simpa [given] using ih
          | some v =>
            simp only [given]
            split
            · rename_i ho
              subst ho
              intro hm
              simp at hm
              rcases hm with rfl | hm
              · exact ⟨t, rfl, by simp⟩
              · obtain ⟨w, hw, hw'⟩ := ih hm; exact ⟨w, hw, List.mem_cons_of_mem _ hw'⟩
            · intro hm; obtain ⟨w, hw, hw'⟩ := ih hm; exact ⟨w, hw, List.mem_cons_of_mem _ hw'⟩
    obtain ⟨w, hw, hm⟩ := hmem is (by rw [hg]; simp)
    rw [hw] at hm
    obtain ⟨k, hk, hki⟩ := hf.ints o t hm ht
    rw [loose_unique hk hki h2]; exact hki
  · rw [hg] at h1; simp at h1

theorem means_intField {is : List Item} {c : Config} (hm : MeansScalars is c) {o : Opt} {f : Config → Int} (hf : intField o = some f) :
    o.takes = .int ∧ ∃ d, IntIs o is d (f c) := by
  cases o <;> simp [intField] at hf <;> subst hf
  · exact ⟨rfl, _, hm.cpu⟩
  · exact ⟨rfl, _, hm.real⟩
  · exact ⟨rfl, _, hm.mem⟩
  · exact ⟨rfl, _, hm.stack⟩
  · exact ⟨rfl, _, hm.nproc⟩
  · exact ⟨rfl, _, hm.out⟩

/-- C47, the part that holds: the value used is that of the text, read with the looser grammar in which white space, a second sign and
a second `0x` may follow a base prefix; it is within `int`.  Missing: that such texts are rejected (`C47_false`). -/
theorem C47_exact_value_partial (posix : Bool) (junk : Cells) (a : CStr) (ws : List CStr) (is : List Item) (c : Config) (o : Opt)
    (f : Config → Int) (t : CStr) (h : MainDoes posix junk (a :: ws) (.runs c)) (hs : Scan posix ws is) (ho : intField o = some f)
    (hg : given o is = [t]) : LooseIntText t (f c) ∧ IsInt (f c) := by
  obtain ⟨hfine, hm, _, _⟩ := runs_inv hs h
  obtain ⟨ht, d, hi⟩ := means_intField hm ho
  exact intIs_isInt hfine ht hi hg

/-- C47 for texts of the documented form: the value used is exactly the one denoted. -/
theorem C47_documented_form (posix : Bool) (junk : Cells) (a : CStr) (ws : List CStr) (is : List Item) (c : Config) (o : Opt)
    (f : Config → Int) (t : CStr) (n : Int) (h : MainDoes posix junk (a :: ws) (.runs c)) (hs : Scan posix ws is)
    (ho : intField o = some f) (hg : given o is = [t]) (ht : IntText t n) : f c = n ∧ IsInt n := by
  obtain ⟨h1, h2⟩ := C47_exact_value_partial posix junk a ws is c o f t h hs ho hg
  have := loose_unique h1 h2 (Or.inl ht)
  exact ⟨this.symm, this ▸ h2⟩

/-- C47, rejection: a text of the documented form whose value is not an `int` is an error, and the command line starts nothing. -/
theorem C47_out_of_range (posix : Bool) (junk : Cells) (a : CStr) (ws : List CStr) (is : List Item) (o : Opt) (t : CStr) (n : Int)
    (hs : Scan posix ws is) (ho : o.takes = .int) (hm : Item.opt o (some t) ∈ is) (ht : IntText t n) (hn : ¬IsInt n) (c : Config) :
    ¬MainDoes posix junk (a :: ws) (.runs c) := by
  intro h
  obtain ⟨hfine, _⟩ := runs_inv hs h
  obtain ⟨k, hk, hki⟩ := hfine.ints o t hm ho
  have := loose_unique hk hki (Or.inl ht)
  exact hn (this ▸ hki)

/-- `--exe_path=x --max_memory=0x-5` -/
def secondSignLine : List CStr := [c!"--exe_path=x", c!"--max_memory=0x-5"]
def secondSignItems : List Item := [.opt .exePath (some c!"x"), .opt .maxMemory (some c!"0x-5")]

theorem secondSign_scan : Scan false secondSignLine secondSignItems :=
  .value c!"exe_path" c!"x" .exePath _ _ (calls_full .exePath) (by decide)
    (.value c!"max_memory" c!"0x-5" .maxMemory _ _ (calls_full .maxMemory) (by decide) .nil)

theorem secondSign_fine : Fine secondSignItems where
  noMistake := by decide
  filled := by
    intro o v h
    simp [secondSignItems] at h
    rcases h with ⟨_, rfl⟩ | ⟨_, rfl⟩ <;> decide
  ints := by
    intro o v h ht
    simp [secondSignItems] at h
    rcases h with ⟨rfl, rfl⟩ | ⟨rfl, rfl⟩
    · simp [Opt.takes] at ht
    · exact ⟨-5, loose_of_ok rfl⟩
  often := by intro o; cases o <;> decide
  exe := by decide

theorem not_intText_secondSign (n : Int) : ¬IntText c!"0x-5" n := by
  rintro ⟨pre, sg, pf, ds, sf, post, k, base, m, f, he, h1, h2, h3, h4, h5, h6, _⟩
  cases pre with
  | cons p pre =>
    simp at he
    have := h1 p (by simp)
    rw [← he.1] at this
    exact absurd this (by decide)
  | nil =>
    rcases h3 with ⟨rfl, _⟩ | ⟨rfl, _⟩ | ⟨rfl, _⟩
    · simp only [List.nil_append] at he
      rcases h4 with ⟨rfl, rfl⟩ | ⟨hp, rfl⟩ | ⟨hp, rfl⟩ | ⟨hp, rfl⟩
      · obtain ⟨g1, g2, _⟩ := (numeral_iff (by decide) ds m).mp h5
        cases ds with
        | nil => exact g1 rfl
        | cons d ds =>
          cases ds with
          | cons d2 ds =>
            simp at he g2
            rw [← he.2.1] at g2
            exact absurd g2.2.1 (by decide)
          | nil =>
            simp at he
            rcases h6 with ⟨rfl, _⟩ | ⟨hs, _⟩ | ⟨hs, _⟩ | ⟨hs, _⟩
            · simp at he
              have := h2 'x' (by rw [← he.2]; simp)
              exact absurd this (by decide)
            · simp at hs; rcases hs with rfl | rfl | rfl | rfl <;> simp at he
            · simp at hs; rcases hs with rfl | rfl | rfl | rfl <;> simp at he
            · simp at hs; rcases hs with rfl | rfl | rfl | rfl <;> simp at he
      · obtain ⟨g1, g2, _⟩ := (numeral_iff (by decide) ds m).mp h5
        cases ds with
        | nil => exact g1 rfl
        | cons d ds =>
          simp at hp g2
          rcases hp with rfl | rfl <;> simp at he
          rw [← he.1] at g2
          exact absurd g2.1 (by decide)
      · simp at hp; rcases hp with rfl | rfl <;> simp at he
      · simp at hp; rcases hp with rfl | rfl <;> simp at he
    · simp at he
    · simp at he

/-- C47 is false of the code: `--max_memory=0x-5` is accepted. -/
theorem C47_false : ¬C47_full := by
  intro h
  obtain ⟨c, hc⟩ := main_runs (junk := fun _ => none) (a := c!"libjudger.so") secondSign_scan secondSign_fine (by decide) (by decide)
  exact not_intText_secondSign _ (h _ _ _ _ _ c .maxMemory _ c!"0x-5" hc secondSign_scan rfl (by decide)).1

/-- What the witness runs with: a memory limit of -5. -/
theorem C47_witness (junk : Cells) (a : CStr) : ∃ c, MainDoes false junk (a :: secondSignLine) (.runs c) ∧ c.maxMemory = -5 := by
  obtain ⟨c, hc⟩ := main_runs (junk := junk) (a := a) secondSign_scan secondSign_fine (by decide) (by decide)
  refine ⟨c, hc, ?_⟩
  have h1 := (C47_exact_value_partial _ _ _ _ _ c .maxMemory _ c!"0x-5" hc secondSign_scan rfl (by decide)).1
  have h2 : scanIntText c!"0x-5" = .ok (-5) := rfl
  exact loose_unique (loose_of_ok h2).1 (loose_of_ok h2).2 h1

example : intField .maxMemory = some (·.maxMemory) ∧ given .maxMemory sampleItems = [c!"64MB"] := ⟨rfl, by decide⟩

/-! ## C48 -/

theorem numeral_showNat (n : Nat) : Numeral 10 (showNat n) n := by
  induction n using Nat.strongRecOn with
  | ind n ih =>
    have hd : ∀ d : Fin 10, digit? (digitChar d) = some d.val := by decide
    by_cases h : n < 10
    · rw [showNat_small h]
      exact .one _ _ (hd ⟨n, h⟩) h
    · rw [showNat_big h]
      have h1 := Numeral.more _ _ _ _ (ih (n / 10) (by omega)) (hd ⟨n % 10, by omega⟩) (show n % 10 < 10 by omega)
      have h2 : n / 10 * 10 + n % 10 = n := by omega
      simp only [h2] at h1
      exact h1

theorem intText_showInt (n : Int) : IntText (showInt n) n := by
  have hb : Blank [] := by intro c hc; simp at hc
  unfold showInt
  by_cases h : n < 0
  · refine ⟨[], ['-'], [], showNat n.natAbs, [], [], -1, 10, n.natAbs, 1, by simp [h], hb, hb, ?_, ?_, numeral_showNat _, ?_, ?_⟩
    · exact Or.inr (Or.inr ⟨rfl, rfl⟩)
    · exact Or.inl ⟨rfl, rfl⟩
    · exact Or.inl ⟨rfl, rfl⟩
    · omega
  · refine ⟨[], [], [], showNat n.natAbs, [], [], 1, 10, n.natAbs, 1, by simp [h], hb, hb, ?_, ?_, numeral_showNat _, ?_, ?_⟩
    · exact Or.inl ⟨rfl, rfl⟩
    · exact Or.inl ⟨rfl, rfl⟩
    · exact Or.inl ⟨rfl, rfl⟩
    · omega

theorem showInt_ne_nil (n : Int) : showInt n ≠ [] := by
  unfold showInt
  split
  · simp
  · exact showNat_ne_nil _

/-- The items of `--exe_path=E --option=V`. -/
theorem two_scan (posix : Bool) (E V : CStr) (o : Opt) (ht : o.takes ≠ .nothing) :
    Scan posix [c!"--exe_path=" ++ E, '-' :: '-' :: (o.name ++ '=' :: V)] [.opt .exePath (some E), .opt o (some V)] :=
  .value c!"exe_path" E .exePath _ _ (calls_full .exePath) (by decide) (.value o.name V o _ _ (calls_full o) ht .nil)

theorem two_fine (E V : CStr) (o : Opt) (hE : E ≠ []) (hV : V ≠ []) (ho : o ≠ .exePath)
    (hi : o.takes = .int → ∃ n, LooseIntText V n ∧ IsInt n) : Fine [.opt .exePath (some E), .opt o (some V)] where
  noMistake := by simp
  filled := by
    intro o' v h
    simp at h
    rcases h with ⟨_, rfl⟩ | ⟨_, rfl⟩
    · exact hE
    · exact hV
  ints := by
    intro o' v h ht
    simp at h
    rcases h with ⟨rfl, rfl⟩ | ⟨rfl, rfl⟩
    · simp [Opt.takes] at ht
    · exact hi ht
  often := by
    intro o'
    have : (0 < o'.atMost) := by cases o' <;> decide
    simp only [times]
    by_cases h1 : Opt.exePath = o'
    · have h2 : o ≠ o' := fun h => ho (h.trans h1.symm)
      simp [h1, h2]; exact this
    · simp only [h1, if_false]
      split <;> omega
  exe := by simp [times]

/-- C48: for every `int` n, the decimal text of n is accepted by every integer option, and the limit is n. -/
theorem C48_every_int (posix : Bool) (junk : Cells) (a E : CStr) (o : Opt) (f : Config → Int) (n : Int) (hE : E ≠ []) (hn : IsInt n)
    (ho : intField o = some f) :
    ∃ c, MainDoes posix junk [a, c!"--exe_path=" ++ E, '-' :: '-' :: (o.name ++ '=' :: showInt n)] (.runs c) ∧ f c = n ∧
      c.exePath = E := by
  have ht : o.takes = .int := by cases o <;> simp [intField] at ho <;> rfl
  have hx : o ≠ .exePath := by rintro rfl; simp [intField] at ho
  have hs := two_scan posix E (showInt n) o (by rw [ht]; decide)
  have hf := two_fine E (showInt n) o hE (showInt_ne_nil n) hx (fun _ => ⟨n, Or.inl (intText_showInt n), hn⟩)
  have hno : ∀ o', o' = Opt.help ∨ o' = Opt.version → times o' [.opt .exePath (some E), .opt o (some (showInt n))] = 0 := by
    rintro o' (rfl | rfl)
    · simp only [times]
      have : o ≠ .help := by rintro rfl; simp [Opt.takes] at ht
      simp [this]
    · simp only [times]
      have : o ≠ .version := by rintro rfl; simp [Opt.takes] at ht
      simp [this]
  obtain ⟨c, hc⟩ := main_runs (junk := junk) (a := a) hs hf (hno _ (Or.inl rfl)) (hno _ (Or.inr rfl))
  refine ⟨c, hc, ?_, ?_⟩
  · have hg : given o [.opt .exePath (some E), .opt o (some (showInt n))] = [showInt n] := by
      simp only [given]
      have : ¬Opt.exePath = o := fun h => hx h.symm
      simp [this]
    exact (C47_documented_form posix junk a _ _ c o f _ n hc hs ho hg (intText_showInt n)).1
  · have := (runs_inv hs hc).2.1.exe
    simp only [given, if_true] at this
    have h3 : ¬o = .exePath := hx
    simp [h3] at this
    exact this.symm

example : intField .maxStack = some (·.maxStack) ∧ IsInt (-2147483648) ∧ showInt (-7) = c!"-7" := by
  refine ⟨rfl, by decide, ?_⟩
  simp [showInt, showNat, digitChar]

/-- C48, also for `--uid` and `--gid`: the number is converted to the unsigned 32-bit id. -/
theorem C48_every_id (posix : Bool) (junk : Cells) (a E : CStr) (n : Int) (hE : E ≠ []) (hn : IsInt n) :
    (∃ c, MainDoes posix junk [a, c!"--exe_path=" ++ E, '-' :: '-' :: (c!"uid" ++ '=' :: showInt n)] (.runs c) ∧ c.uid = castU32 n) ∧
    (∃ c, MainDoes posix junk [a, c!"--exe_path=" ++ E, '-' :: '-' :: (c!"gid" ++ '=' :: showInt n)] (.runs c) ∧ c.gid = castU32 n) := by
  have main : ∀ o : Opt, o = .uid ∨ o = .gid → ∃ c, MainDoes posix junk
      [a, c!"--exe_path=" ++ E, '-' :: '-' :: (o.name ++ '=' :: showInt n)] (.runs c) ∧
      ∃ m, IntIs o [.opt .exePath (some E), .opt o (some (showInt n))] 65534 m ∧
        (if o = .uid then c.uid else c.gid) = castU32 m ∧ m = n := by
    intro o ho
    have ht : o.takes = .int := by rcases ho with rfl | rfl <;> rfl
    have hs := two_scan posix E (showInt n) o (by rw [ht]; decide)
    have hf := two_fine E (showInt n) o hE (showInt_ne_nil n) (by rcases ho with rfl | rfl <;> decide)
      (fun _ => ⟨n, Or.inl (intText_showInt n), hn⟩)
    obtain ⟨c, hc⟩ := main_runs (junk := junk) (a := a) hs hf
      (by rcases ho with rfl | rfl <;> simp [times]) (by rcases ho with rfl | rfl <;> simp [times])
    refine ⟨c, hc, ?_⟩
    obtain ⟨_, hm, _⟩ := runs_inv hs hc
    have hval : ∀ m, IntIs o [.opt .exePath (some E), .opt o (some (showInt n))] 65534 m → m = n := by
      intro m hi
      have hg : given o [.opt .exePath (some E), .opt o (some (showInt n))] = [showInt n] := by
        rcases ho with rfl | rfl <;> simp [given]
      have := intIs_isInt hf ht hi hg
      exact (loose_unique this.1 this.2 (Or.inl (intText_showInt n))).symm
    rcases ho with rfl | rfl
    · obtain ⟨m, h1, h2⟩ := hm.uid; exact ⟨m, h1, by simpa using h2, hval m h1⟩
    · obtain ⟨m, h1, h2⟩ := hm.gid; exact ⟨m, h1, by simpa using h2, hval m h1⟩
  refine ⟨?_, ?_⟩
  · obtain ⟨c, h1, m, _, h3, h4⟩ := main .uid (Or.inl rfl)
    exact ⟨c, h1, by rw [← h4]; simpa using h3⟩
  · obtain ⟨c, h1, m, _, h3, h4⟩ := main .gid (Or.inr rfl)
    exact ⟨c, h1, by rw [← h4]; simpa using h3⟩

/-! ## C49 -/

/-- The documented default of each option. -/
structure Defaults (is : List Item) (c : Config) : Prop where
  cpu : times .maxCpuTime is = 0 → c.maxCpuTime = -1
  real : times .maxRealTime is = 0 → c.maxRealTime = -1
  mem : times .maxMemory is = 0 → c.maxMemory = -1
  check : times .memoryLimitCheckOnly is = 0 → c.memoryLimitCheckOnly = 0
  stack : times .maxStack is = 0 → c.maxStack = 16777216
  nproc : times .maxProcessNumber is = 0 → c.maxProcessNumber = -1
  out : times .maxOutputSize is = 0 → c.maxOutputSize = -1
  input : times .inputPath is = 0 → c.inputPath = some c!"/dev/stdin"
  output : times .outputPath is = 0 → c.outputPath = some c!"/dev/stdout"
  error : times .errorPath is = 0 → c.errorPath = some c!"/dev/stderr"
  args : times .args is = 0 → c.args = [c.exePath]
  env : times .env is = 0 → c.env = []
  log : times .logPath is = 0 → c.logPath = c!"judger.log"
  seccomp : times .seccompRuleName is = 0 → c.seccompRuleName = none
  uid : times .uid is = 0 → c.uid = 65534
  gid : times .gid is = 0 → c.gid = 65534

/-- C49: on every accepted command line, every option not given has its documented default. -/
theorem C49_defaults (posix : Bool) (junk : Cells) (a : CStr) (ws : List CStr) (is : List Item) (c : Config)
    (h : MainDoes posix junk (a :: ws) (.runs c)) (hs : Scan posix ws is) : Defaults is c := by
  obtain ⟨hf, hm, ha, he⟩ := runs_inv hs h
  have none_given : ∀ o, times o is = 0 → given o is = [] := by
    intro o ho
    have := given_length_le o is
    exact List.length_eq_zero_iff.mp (by omega)
  have int : ∀ {o d n}, IntIs o is d n → times o is = 0 → n = d := by
    intro o d n hi ho
    rcases hi with ⟨t, h1, _⟩ | ⟨_, h2⟩
    · rw [none_given o ho] at h1; simp at h1
    · exact h2
  have txt : ∀ {o d n}, TextIs o is d n → times o is = 0 → n = d := by
    intro o d n hi ho
    rcases hi with h1 | ⟨_, h2⟩
    · rw [none_given o ho] at h1; simp at h1
    · exact h2
  constructor
  · exact int hm.cpu
  · exact int hm.real
  · exact int hm.mem
  · intro h0
    obtain ⟨n, h1, h2⟩ := hm.check
    rw [h2, int h1 h0]; rfl
  · exact int hm.stack
  · exact int hm.nproc
  · exact int hm.out
  · intro h0; obtain ⟨t, h1, h2⟩ := hm.input; rw [h2, txt h1 h0]
  · intro h0; obtain ⟨t, h1, h2⟩ := hm.output; rw [h2, txt h1 h0]
  · intro h0; obtain ⟨t, h1, h2⟩ := hm.error; rw [h2, txt h1 h0]
  · intro h0; rw [ha, none_given _ h0]; simp
  · intro h0; rw [he, none_given _ h0]
  · exact txt hm.log
  · intro h0
    rcases hm.seccomp with ⟨t, h1, _⟩ | ⟨_, h2⟩
    · rw [none_given _ h0] at h1; simp at h1
    · exact h2
  · intro h0; obtain ⟨n, h1, h2⟩ := hm.uid; rw [h2, int h1 h0]; rfl
  · intro h0; obtain ⟨n, h1, h2⟩ := hm.gid; rw [h2, int h1 h0]; rfl

example : ∃ c, MainDoes false (fun _ => none) (c!"j" :: sampleLine) (.runs c) ∧ c.maxCpuTime = -1 ∧ c.uid = 65534 := by
  obtain ⟨c, h⟩ := sample_runs false (fun _ => none) c!"j"
  have := C49_defaults _ _ _ _ _ c h (sample_scan false)
  exact ⟨c, h, this.cpu (by decide), this.uid (by decide)⟩

/-! ## C50, C51 -/

/-- C50, the full claim. -/
def C50_full : Prop :=
  ∀ (posix : Bool) (junk : Cells) (a : CStr) (ws : List CStr) (is : List Item) (c : Config),
    MainDoes posix junk (a :: ws) (.runs c) → Scan posix ws is → c.args = c.exePath :: given .args is

/-- C50, the part that holds: up to 254 `--args`, or 255 without `--env`.  Missing: 255 `--args` with `--env` (`C50_false`). -/
theorem C50_arguments_partial (posix : Bool) (junk : Cells) (a : CStr) (ws : List CStr) (is : List Item) (c : Config)
    (h : MainDoes posix junk (a :: ws) (.runs c)) (hs : Scan posix ws is)
    (hn : (given .args is).length ≠ 255 ∨ given .env is = []) : c.args = c.exePath :: given .args is := by
  obtain ⟨_, _, ha, _⟩ := runs_inv hs h
  rcases hn with hn | hn
  · rw [ha, if_neg hn, List.append_nil]
  · rw [ha, hn]; simp

/-- C50, exactly what happens with 255 `--args`: the environment is appended to the arguments. -/
theorem C50_full_list (posix : Bool) (junk : Cells) (a : CStr) (ws : List CStr) (is : List Item) (c : Config)
    (h : MainDoes posix junk (a :: ws) (.runs c)) (hs : Scan posix ws is) (hn : (given .args is).length = 255) :
    c.args = c.exePath :: (given .args is ++ given .env is) := by
  obtain ⟨_, _, ha, _⟩ := runs_inv hs h
  rw [ha, if_pos hn]

/-- C50, settled: the program receives exactly the requested arguments if and only if there are not 255 of them, or no `--env`. -/
theorem C50_exact (posix : Bool) (junk : Cells) (a : CStr) (ws : List CStr) (is : List Item) (c : Config)
    (h : MainDoes posix junk (a :: ws) (.runs c)) (hs : Scan posix ws is) :
    c.args = c.exePath :: given .args is ↔ (given .args is).length ≠ 255 ∨ given .env is = [] := by
  refine ⟨fun he => ?_, C50_arguments_partial posix junk a ws is c h hs⟩
  by_cases hn : (given .args is).length = 255
  · rw [C50_full_list posix junk a ws is c h hs hn] at he
    exact .inr (by simpa using he)
  · exact .inl hn

/-- `--exe_path=x`, 255 times `--args=y`, `--env=z` -/
def manyLine : List CStr := c!"--exe_path=x" :: (List.replicate 255 c!"--args=y" ++ [c!"--env=z"])
def manyItems : List Item := .opt .exePath (some c!"x") :: (List.replicate 255 (.opt .args (some c!"y")) ++ [.opt .env (some c!"z")])

theorem many_scan (posix : Bool) : Scan posix manyLine manyItems := by
  have h0 : Scan posix [c!"--env=z"] [.opt .env (some c!"z")] :=
    .value c!"env" c!"z" .env _ _ (calls_full .env) (by decide) .nil
  have h1 : ∀ n, Scan posix (List.replicate n c!"--args=y" ++ [c!"--env=z"])
      (List.replicate n (.opt .args (some c!"y")) ++ [.opt .env (some c!"z")]) := by
    intro n
    induction n with
    | zero => exact h0
    | succ n ih => exact .value c!"args" c!"y" .args _ _ (calls_full .args) (by decide) ih
  exact .value c!"exe_path" c!"x" .exePath _ _ (calls_full .exePath) (by decide) (h1 255)

theorem mem_manyItems {it : Item} (h : it ∈ manyItems) :
    it = .opt .exePath (some c!"x") ∨ it = .opt .args (some c!"y") ∨ it = .opt .env (some c!"z") := by
  unfold manyItems at h
  simp only [List.mem_cons, List.mem_append, List.mem_replicate, List.not_mem_nil, or_false] at h
  rcases h with h | ⟨_, h⟩ | h
  · exact Or.inl h
  · exact Or.inr (Or.inl h)
  · exact Or.inr (Or.inr h)

theorem many_given (n : Nat) : given .args (List.replicate n (.opt .args (some c!"y")) ++ [.opt .env (some c!"z")]) = List.replicate n c!"y" ∧
    given .env (List.replicate n (.opt .args (some c!"y")) ++ [.opt .env (some c!"z")]) = [c!"z"] ∧
    ∀ o, times o (List.replicate n (.opt .args (some c!"y")) ++ [.opt .env (some c!"z")]) =
      (if o = .args then n else 0) + (if o = .env then 1 else 0) := by
  induction n with
  | zero => exact ⟨by decide, by decide, fun o => by cases o <;> decide⟩
  | succ n ih =>
    obtain ⟨h1, h2, h3⟩ := ih
    refine ⟨?_, ?_, ?_⟩
    · rw [List.replicate_succ, List.cons_append, given, if_pos rfl, h1]; rfl
    · rw [List.replicate_succ, List.cons_append, given, if_neg (by decide), h2]
    · intro o
      rw [List.replicate_succ, List.cons_append, times, h3]
      by_cases ho : o = .args
      · subst ho; simp
      · have : ¬Opt.args = o := fun h => ho h.symm
        simp [ho, this]

theorem many_fine : Fine manyItems where
  noMistake := by intro h; have := mem_manyItems h; simp at this
  filled := by
    intro o v h
    have := mem_manyItems h
    simp at this
    rcases this with ⟨_, rfl⟩ | ⟨_, rfl⟩ | ⟨_, rfl⟩ <;> decide
  ints := by
    intro o v h ht
    have := mem_manyItems h
    simp at this
    rcases this with ⟨rfl, rfl⟩ | ⟨rfl, rfl⟩ | ⟨rfl, rfl⟩ <;> simp [Opt.takes] at ht
  often := by
    intro o
    have := (many_given 255).2.2 o
    unfold manyItems
    rw [times, this]
    cases o <;> simp [Opt.atMost]
  exe := by
    have := (many_given 255).2.2 .exePath
    unfold manyItems
    rw [times, this]; decide

theorem append_ne (l : List CStr) (z : CStr) : l ++ [z] ≠ l := by simp

/-- C50 is false of the code: with 255 `--args` the list's NULL goes past its array, into the first cell of `env`, and the first
`--env` overwrites it. -/
theorem C50_false : ¬C50_full := by
  intro h
  have ht := (many_given 255).2.2
  obtain ⟨c, hc⟩ := main_runs (junk := fun _ => none) (a := c!"j") (many_scan false) many_fine
    (by unfold manyItems; rw [times, ht]; decide) (by unfold manyItems; rw [times, ht]; decide)
  have h1 := h _ _ _ _ _ c hc (many_scan false)
  have hga : given .args manyItems = List.replicate 255 c!"y" := by
    unfold manyItems; rw [given, if_neg (by decide)]; exact (many_given 255).1
  have hge : given .env manyItems = [c!"z"] := by
    unfold manyItems; rw [given, if_neg (by decide)]; exact (many_given 255).2.1
  have h2 := C50_full_list _ _ _ _ _ c hc (many_scan false) (by rw [hga, List.length_replicate])
  rw [h2, hga, hge] at h1
  have h3 := (List.cons.inj h1).2
  exact append_ne _ _ h3

/-- C51: on every accepted command line the environment is exactly the `--env` values, in order. -/
theorem C51_environment (posix : Bool) (junk : Cells) (a : CStr) (ws : List CStr) (is : List Item) (c : Config)
    (h : MainDoes posix junk (a :: ws) (.runs c)) (hs : Scan posix ws is) : c.env = given .env is :=
  (runs_inv hs h).2.2.2

example : given .args sampleItems = [c!"-l"] ∧ given .env sampleItems = [] := by decide
example : given .env manyItems = [c!"z"] := by
  unfold manyItems; rw [given, if_neg (by decide)]; exact (many_given 255).2.1

/-! ## C52 -/

theorem MeansScalars.unique {is : List Item} {c c' : Config} (hf : Fine is) (h : MeansScalars is c) (h' : MeansScalars is c')
    (ha : c.args = c'.args) (he : c.env = c'.env) : c = c' := by
  have e1 := IntIs.unique hf rfl h.cpu h'.cpu
  have e2 := IntIs.unique hf rfl h.real h'.real
  have e3 := IntIs.unique hf rfl h.mem h'.mem
  have e4 : c.memoryLimitCheckOnly = c'.memoryLimitCheckOnly := by
    obtain ⟨n, a1, a2⟩ := h.check
    obtain ⟨m, b1, b2⟩ := h'.check
    rw [a2, b2, IntIs.unique hf rfl a1 b1]
  have e5 := IntIs.unique hf rfl h.stack h'.stack
  have e6 := IntIs.unique hf rfl h.nproc h'.nproc
  have e7 := IntIs.unique hf rfl h.out h'.out
  have e8 : c.exePath = c'.exePath := by
    have a1 := h.exe
    rw [h'.exe] at a1
    simpa using a1.symm
  have e9 : c.inputPath = c'.inputPath := by
    obtain ⟨n, a1, a2⟩ := h.input
    obtain ⟨m, b1, b2⟩ := h'.input
    rw [a2, b2, TextIs.unique a1 b1]
  have e10 : c.outputPath = c'.outputPath := by
    obtain ⟨n, a1, a2⟩ := h.output
    obtain ⟨m, b1, b2⟩ := h'.output
    rw [a2, b2, TextIs.unique a1 b1]
  have e11 : c.errorPath = c'.errorPath := by
    obtain ⟨n, a1, a2⟩ := h.error
    obtain ⟨m, b1, b2⟩ := h'.error
    rw [a2, b2, TextIs.unique a1 b1]
  have e12 := TextIs.unique h.log h'.log
  have e13 : c.seccompRuleName = c'.seccompRuleName := by
    rcases h.seccomp with ⟨t, a1, a2⟩ | ⟨a1, a2⟩ <;> rcases h'.seccomp with ⟨t', b1, b2⟩ | ⟨b1, b2⟩
    · rw [a1] at b1
      simp only [List.cons.injEq, and_true] at b1
      rw [a2, b2, b1]
    · rw [a1] at b1; simp at b1
    · rw [a1] at b1; simp at b1
    · rw [a2, b2]
  have e14 : c.uid = c'.uid := by
    obtain ⟨n, a1, a2⟩ := h.uid
    obtain ⟨m, b1, b2⟩ := h'.uid
    rw [a2, b2, IntIs.unique hf rfl a1 b1]
  have e15 : c.gid = c'.gid := by
    obtain ⟨n, a1, a2⟩ := h.gid
    obtain ⟨m, b1, b2⟩ := h'.gid
    rw [a2, b2, IntIs.unique hf rfl a1 b1]
  cases c
  cases c'
  simp only [Config.mk.injEq]
  exact ⟨e1, e2, e3, e5, e6, e7, e4, e8, e9, e10, e11, ha, he, e12, e13, e14, e15⟩

/-- Two command lines with the same items make the same run. -/
theorem same_items_same_run {posix : Bool} {junk : Cells} {a : CStr} {ws ws' : List CStr} {is : List Item} {c : Config}
    (hs : Scan posix ws is) (hs' : Scan posix ws' is) (h : MainDoes posix junk (a :: ws) (.runs c)) :
    MainDoes posix junk (a :: ws') (.runs c) := by
  obtain ⟨hf, hm, ha, he⟩ := runs_inv hs h
  have hd := main_decides hs h
  obtain ⟨c', hc'⟩ : ∃ c', MainDoes posix junk (a :: ws') (.runs c') := by
    cases hd with
    | runs _ h1 h2 => exact main_runs hs' hf h1 h2
  obtain ⟨_, hm', ha', he'⟩ := runs_inv hs' hc'
  have hexe : c.exePath = c'.exePath := by
    have a1 := hm.exe
    rw [hm'.exe] at a1
    simpa using a1.symm
  have : c = c' := MeansScalars.unique hf hm hm' (by rw [ha, ha', hexe]) (by rw [he, he'])
  rw [this]; exact hc'

/-- What follows an accepted option word is itself readable. -/
theorem scan_tail {posix : Bool} {n v : CStr} {o : Opt} {ws : List CStr} {is : List Item} (hc : Calls n o) (ht : o.takes ≠ .nothing)
    (h : Scan posix (('-' :: '-' :: (n ++ '=' :: v)) :: ws) is) : ∃ is', Scan posix ws is' := by
  obtain ⟨evs, rest, h1, _⟩ := scanWords_of_scan h
  have := scanWords_long (posix := posix) (s := []) (b := n ++ '=' :: v) ws (by simp) (by simp)
  simp only [List.nil_append] at this
  rw [this, longUse_value hc ht] at h1
  refine scan_of_scanWords ws.length ws (Nat.le_refl _) ?_
  intro hn
  simp [hn] at h1

/-- C52, accepted names: `--n=v` makes the same run as `--name=v` with the full name, for every `n` the option may be called by. -/
theorem C52_abbreviation (posix : Bool) (junk : Cells) (a n v : CStr) (o : Opt) (ws : List CStr) (c : Config) (hc : Calls n o)
    (ht : o.takes ≠ .nothing) :
    MainDoes posix junk (a :: ('-' :: '-' :: (n ++ '=' :: v)) :: ws) (.runs c) ↔
      MainDoes posix junk (a :: ('-' :: '-' :: (o.name ++ '=' :: v)) :: ws) (.runs c) := by
  have dir : ∀ n n', Calls n o → Calls n' o → MainDoes posix junk (a :: ('-' :: '-' :: (n ++ '=' :: v)) :: ws) (.runs c) →
      MainDoes posix junk (a :: ('-' :: '-' :: (n' ++ '=' :: v)) :: ws) (.runs c) := by
    intro n n' h1 h2 h
    obtain ⟨is, hs, _⟩ := main_scan h
    obtain ⟨is', hs'⟩ := scan_tail h1 ht hs
    exact same_items_same_run (Scan.value n v o ws is' h1 ht hs') (Scan.value n' v o ws is' h2 ht hs') h
  exact ⟨dir n o.name hc (calls_full o), dir o.name n (calls_full o) hc⟩

/-- C52, rejected names: a word `--n` or `--n=v` whose name calls no option starts nothing, whatever follows. -/
theorem C52_unknown_name (posix : Bool) (junk : Cells) (a n : CStr) (v : Option CStr) (ws : List CStr) (c : Config) (hn : '=' ∉ n)
    (hne : n ≠ []) (hno : ∀ o, ¬Calls n o) :
    ¬MainDoes posix junk (a :: ('-' :: '-' :: (n ++ v.elim [] ('=' :: ·))) :: ws) (.runs c) := by
  intro h
  obtain ⟨is, hs, _⟩ := main_scan h
  obtain ⟨b, hb⟩ : ∃ b, (n ++ v.elim [] ('=' :: ·)) = b := ⟨_, rfl⟩
  rw [hb] at h hs
  have hbne : b ≠ [] := by rw [← hb]; simp [hne]
  have h1 : ∀ o, ¬Calls b o := by
    intro o ho
    cases v with
    | none => simp at hb; subst hb; exact hno o ho
    | some v => simp at hb; exact Calls.noEq ho (by rw [← hb]; simp)
  have h2 : ∀ n' v' o, b = n' ++ '=' :: v' → Calls n' o → o.takes = .nothing := by
    intro n' v' o he ho
    cases v with
    | none => simp at hb; rw [he] at hb; exact absurd (by rw [hb]; simp) hn
    | some v =>
      simp at hb
      have e1 := strchr_split (v := v) hn
      have e2 := strchr_split (v := v') (Calls.noEq ho)
      rw [hb, he, e2] at e1
      simp only [Option.some.injEq, List.cons.injEq, true_and] at e1
      subst e1
      rw [he] at hb
      have : n = n' := List.append_cancel_right hb
      subst this
      exact absurd ho (hno o)
  obtain ⟨evs, rest, g1, _⟩ := scanWords_of_scan hs
  have := scanWords_long (posix := posix) (s := []) (b := b) ws (by simp) hbne
  simp only [List.nil_append] at this
  rw [this, longUse_bad h1 h2] at g1
  obtain ⟨is', hs'⟩ := scan_of_scanWords (posix := posix) ws.length ws (Nat.le_refl _) (by intro hn; simp [hn] at g1)
  exact (runs_inv (Scan.unknown b ws is' hbne h1 h2 hs') h).1.noMistake (by simp)

/-- `max_mem` abbreviates `max_memory`; `max` and `e` are ambiguous, `exe_paths` is unknown. -/
example : Calls c!"max_mem" .maxMemory ∧ (∀ o, ¬Calls c!"max" o) ∧ (∀ o, ¬Calls c!"exe_paths" o) := by
  refine ⟨calls_of_all (by decide) (by decide), ?_, ?_⟩
  · intro o ho
    rw [calls_iff] at ho
    have h1 := ho.2 .maxMemory (List.isPrefixOf_iff_prefix.mp (by decide))
    have h2 := ho.2 .maxStack (List.isPrefixOf_iff_prefix.mp (by decide))
    rw [← h1] at h2
    exact absurd h2 (by decide)
  · intro o ho
    rw [calls_iff] at ho
    have : ∀ o ∈ allOpts, ¬(c!"exe_paths".isPrefixOf o.name = true) := by decide
    exact this o (mem_allOpts o) (List.isPrefixOf_iff_prefix.mpr ho.1)

/-! ## C53, C55, C57 -/

/-- C53, the full claim. -/
def C53_full : Prop :=
  ∀ (posix : Bool) (junk : Cells) (a : CStr) (ws : List CStr),
    (¬∃ is, Scan posix ws is ∧ Fine is) → (¬∃ is, Scan posix ws is ∧ (0 < times .help is ∨ 0 < times .version is)) →
    ∃ recs, MainDoes posix junk (a :: ws) (.errors recs)

/-- C53, the part that holds: every command line with a mistake that is finished with ends in an error message and exit status 1.
Missing: the words `-abc-` (`C53_false`). -/
theorem C53_error_exit_partial (posix : Bool) (junk : Cells) (a : CStr) (ws : List CStr) (is : List Item) (hs : Scan posix ws is)
    (hf : ¬Fine is) (hh : times .help is = 0) (hv : times .version is = 0) :
    ∃ recs, MainDoes posix junk (a :: ws) (.errors recs) ∧ recs ≠ [] ∧ (MainOut.errors recs).exitStatus = 1 := by
  obtain ⟨out, h1, h2⟩ := main_exists (junk := junk) (a := a) hs
  cases h2 with
  | help h => omega
  | version _ h => omega
  | errors recs _ _ _ h => exact ⟨recs, h1, h, rfl⟩
  | runs c _ _ h => exact absurd h hf

/-- C53, nothing is run: no command line with a mistake is ever run, whether it is finished with or not. -/
theorem C53_nothing_run (posix : Bool) (junk : Cells) (a : CStr) (ws : List CStr) (h : ¬∃ is, Scan posix ws is ∧ Fine is) (c : Config) :
    ¬MainDoes posix junk (a :: ws) (.runs c) := by
  intro hr
  obtain ⟨is, hs, hd⟩ := main_scan hr
  cases hd with
  | runs _ _ _ hf => exact h ⟨is, hs, hf⟩

/-- C53, no words at all (`argc == 0`): the missing `exe_path` is reported. -/
theorem C53_no_words (posix : Bool) (junk : Cells) :
    MainDoes posix junk [] (.errors [⟨.mincount, some 9, none⟩]) := ⟨0, by rfl⟩

theorem scanWords_hang {posix : Bool} {s : CStr} (hs : s ≠ []) (hd : '-' ∉ s) (ws : List CStr) :
    scanWords posix mainLong (('-' :: (s ++ ['-'])) :: ws) = none := by
  have h1 : s ++ ['-'] ≠ ['-'] := by cases s <;> simp at hs ⊢
  rw [scanWords.eq_2, if_neg (by simp), if_neg (by simpa using h1)]
  simp only [List.tail_cons, cluster_lettersLong hd, if_true]

theorem no_scan_hang {posix : Bool} {s : CStr} (hs : s ≠ []) (hd : '-' ∉ s) (ws : List CStr) :
    ¬∃ is, Scan posix (('-' :: (s ++ ['-'])) :: ws) is := by
  rintro ⟨is, h⟩
  obtain ⟨evs, rest, h1, _⟩ := scanWords_of_scan h
  rw [scanWords_hang hs hd] at h1
  simp at h1

/-- C53 is false of the code: `libjudger.so -a-` never exits. -/
theorem C53_false : ¬C53_full := by
  intro h
  have hn : ¬∃ is, Scan false [c!"-a-"] is := no_scan_hang (s := ['a']) (by simp) (by decide) []
  obtain ⟨recs, f, hr⟩ := h false (fun _ => none) c!"j" [c!"-a-"] (fun ⟨is, h1, _⟩ => hn ⟨is, h1⟩) (fun ⟨is, h1, _⟩ => hn ⟨is, h1⟩)
  rw [mainDecide_none hn] at hr
  simp at hr

example : Scan false [c!"--exe_path=x", c!"more"] [.opt .exePath (some c!"x"), .mistake] ∧
    ¬Fine [.opt .exePath (some c!"x"), .mistake] :=
  ⟨.value c!"exe_path" c!"x" .exePath _ _ (calls_full .exePath) (by decide)
    (.positional c!"more" _ _ (Or.inl (by decide)) rfl .nil), fun h => h.noMistake (by simp)⟩

/-- C55, the full claim. -/
def C55_full : Prop := ∀ (posix : Bool) (junk : Cells) (argv : List CStr), ∃ out, MainDoes posix junk argv out

/-- C55, exactly when parsing terminates. -/
theorem C55_terminates_iff (posix : Bool) (junk : Cells) (a : CStr) (ws : List CStr) :
    (∃ out, MainDoes posix junk (a :: ws) out) ↔ ∃ is, Scan posix ws is := by
  constructor
  · rintro ⟨out, h⟩
    obtain ⟨is, hs, _⟩ := main_scan h
    exact ⟨is, hs⟩
  · rintro ⟨is, hs⟩
    obtain ⟨out, h, _⟩ := main_exists (junk := junk) (a := a) hs
    exact ⟨out, h⟩

theorem scanWords_some {posix : Bool} (n : Nat) : ∀ (ws : List CStr), ws.length ≤ n → (∀ w ∈ ws, ¬Hanging w) →
    scanWords posix mainLong ws ≠ none := by
  induction n with
  | zero =>
    intro ws hl _
    have : ws = [] := List.length_eq_zero_iff.mp (Nat.le_zero.mp hl)
    subst this
    simp [scanWords]
  | succ n ih =>
    intro ws hl hw
    cases ws with
    | nil => simp [scanWords]
    | cons w ws =>
      simp at hl
      have ih1 := ih ws hl fun w hm => hw w (by simp [hm])
      by_cases hp : w.head? ≠ some '-' ∨ w.tail = []
      · rw [scanWords.eq_2, if_pos hp]
        split
        · simp
        · simpa using ih1
      · have hw' : ∃ t, w = '-' :: t ∧ t ≠ [] := by
          cases w with
          | nil => simp at hp
          | cons c r => simp at hp; exact ⟨r, by rw [hp.1], hp.2⟩
        obtain ⟨t, rfl, ht⟩ := hw'
        by_cases hdd : t = ['-']
        · rw [scanWords.eq_2, if_neg hp, if_pos (by simpa using hdd)]; simp
        · rcases dash_split t with hd | ⟨s, b, rfl, hd⟩
          · rw [scanWords.eq_2, if_neg hp, if_neg (by simpa using hdd)]
            simp only [List.tail_cons, cluster_letters hd]
            simpa using ih1
          · by_cases hb : b = []
            · subst hb
              have hs : s ≠ [] := by rintro rfl; simp at hdd
              exact absurd ⟨s, hs, hd, rfl⟩ (hw _ (by simp))
            · rw [scanWords_long ws hd hb]
              split
              · simpa using ih1
              · simpa using ih1
              · simpa using ih1
              · split
                · simp
                · rename_i v ws'
                  have := ih ws' (by simp at hl; omega) fun w hm => hw w (by simp [hm])
                  simpa using this

/-- C55, the part that holds: parsing terminates on every command line without a word `-abc-`, and on the empty one. -/
theorem C55_terminates_partial (posix : Bool) (junk : Cells) (argv : List CStr) (h : ∀ w ∈ argv.tail, ¬Hanging w) :
    ∃ out, MainDoes posix junk argv out := by
  cases argv with
  | nil => exact ⟨_, C53_no_words posix junk⟩
  | cons a ws =>
    rw [C55_terminates_iff]
    exact scan_of_scanWords ws.length ws (Nat.le_refl _) (scanWords_some ws.length ws (Nat.le_refl _) h)

/-- C55 is false of the code: on `libjudger.so -a-` the loop of `arg_parse_tagged` never ends. -/
theorem C55_false : ¬C55_full := by
  intro h
  have hn : ¬∃ is, Scan false [c!"-a-"] is := no_scan_hang (s := ['a']) (by simp) (by decide) []
  obtain ⟨out, f, hr⟩ := h false (fun _ => none) [c!"j", c!"-a-"]
  rw [mainDecide_none hn] at hr
  simp at hr

example : ∀ w ∈ (c!"j" :: sampleLine).tail, ¬Hanging w := by
  intro w hw
  rintro ⟨s, _, hd, he⟩
  have hlast : w.getLast? = some '-' := by rw [he, ← List.cons_append, List.getLast?_append]; rfl
  simp [sampleLine] at hw
  rcases hw with rfl | rfl | rfl | rfl <;> simp at hlast

/-- C57, the full claim: after any words `--name=value`, `--help` decides, whatever follows. -/
def C57_full : Prop :=
  ∀ (posix : Bool) (junk : Cells) (a : CStr) (before after : List CStr), (∀ w ∈ before, ∃ b, w = '-' :: '-' :: b ∧ '=' ∈ b) →
    MainDoes posix junk (a :: (before ++ c!"--help" :: after)) .help

/-- C57, the part that holds: on every command line that is finished with, `--help` wins over everything, `--version` over everything
but `--help`; both exit with status 0 and run nothing.  Missing: a later `-abc-` (`C57_false`). -/
theorem C57_help_first_partial (posix : Bool) (junk : Cells) (a : CStr) (ws : List CStr) (is : List Item) (hs : Scan posix ws is) :
    (0 < times .help is → ∀ out, MainDoes posix junk (a :: ws) out ↔ out = .help) ∧
    (times .help is = 0 → 0 < times .version is → ∀ out, MainDoes posix junk (a :: ws) out ↔ out = .version) := by
  obtain ⟨out0, h1, h2⟩ := main_exists (junk := junk) (a := a) hs
  refine ⟨fun hh out => ?_, fun hh hv out => ?_⟩
  · have : out0 = .help := by
      cases h2 with
      | help h => rfl
      | version h _ => omega
      | errors recs h => omega
      | runs c h => omega
    subst this
    exact ⟨fun h => h1.unique h, fun h => h ▸ h1⟩
  · have : out0 = .version := by
      cases h2 with
      | help h => omega
      | version _ _ => rfl
      | errors recs _ h => omega
      | runs c _ h => omega
    subst this
    exact ⟨fun h => h1.unique h, fun h => h ▸ h1⟩

/-- C57, exit status: help and version exit with status 0. -/
theorem C57_exit_status : MainOut.help.exitStatus = 0 ∧ MainOut.version.exitStatus = 0 := ⟨rfl, rfl⟩

/-- C57 is false of the code: `--help -a-` never exits. -/
theorem C57_false : ¬C57_full := by
  intro h
  have hn : ¬∃ is, Scan false [c!"--help", c!"-a-"] is := by
    rintro ⟨is, hs⟩
    obtain ⟨evs, rest, h1, _⟩ := scanWords_of_scan hs
    have := scanWords_long (posix := false) (s := []) (b := c!"help") [c!"-a-"] (by simp) (by simp)
    simp only [List.nil_append] at this
    have hh : scanWords false mainLong [c!"-a-"] = none := scanWords_hang (s := ['a']) (by simp) (by decide) []
    have hl : longUse mainLong c!"help" = _ := longUse_bare (calls_full .help)
    rw [this, hl, if_pos (show Opt.help.takes = .nothing from rfl), hh] at h1
    simp at h1
  obtain ⟨f, hr⟩ := h false (fun _ => none) c!"j" [] [c!"-a-"] (by simp)
  rw [List.nil_append] at hr
  rw [mainDecide_none hn] at hr
  simp at hr

example : Scan false [c!"--max_memory=oops", c!"--help"] [.opt .maxMemory (some c!"oops"), .opt .help none] :=
  .value c!"max_memory" c!"oops" .maxMemory _ _ (calls_full .maxMemory) (by decide)
    (.flag c!"help" .help _ _ (calls_full .help) rfl .nil)

/-! ## C54 -/

/-- C54: on every accepted command line a text option has exactly the text given. -/
theorem C54_verbatim (posix : Bool) (junk : Cells) (a : CStr) (ws : List CStr) (is : List Item) (c : Config) (o : Opt)
    (f : Config → Option CStr) (t : CStr) (h : MainDoes posix junk (a :: ws) (.runs c)) (hs : Scan posix ws is)
    (ho : textField o = some f) (hg : given o is = [t]) : f c = some t := by
  obtain ⟨_, hm, _⟩ := runs_inv hs h
  have txt : ∀ {d n}, TextIs o is d n → n = t := by
    intro d n hi
    rcases hi with h1 | ⟨h1, _⟩
    · rw [hg] at h1; simpa using h1.symm
    · rw [hg] at h1; simp at h1
  cases o <;> simp [textField] at ho <;> subst ho
  · have := hm.exe; rw [hg] at this; simp at this; simp [this]
  · obtain ⟨n, h1, h2⟩ := hm.input; show _ = _; simp only [h2, txt h1]
  · obtain ⟨n, h1, h2⟩ := hm.output; show _ = _; simp only [h2, txt h1]
  · obtain ⟨n, h1, h2⟩ := hm.error; show _ = _; simp only [h2, txt h1]
  · simp [txt hm.log]
  · rcases hm.seccomp with ⟨n, h1, h2⟩ | ⟨h1, _⟩
    · rw [hg] at h1; simp at h1; simp only [h2, h1]
    · rw [hg] at h1; simp at h1

/-- C54, every text: for every non-empty `V` both `--option=V` and `--option V` are accepted and give `V`, unchanged. -/
theorem C54_every_text (posix : Bool) (junk : Cells) (a E V : CStr) (o : Opt) (f : Config → Option CStr) (hE : E ≠ []) (hV : V ≠ [])
    (ho : textField o = some f) (hx : o ≠ .exePath) :
    (∃ c, MainDoes posix junk [a, c!"--exe_path=" ++ E, '-' :: '-' :: (o.name ++ '=' :: V)] (.runs c) ∧ f c = some V ∧ c.exePath = E) ∧
    (∃ c, MainDoes posix junk [a, c!"--exe_path", E, '-' :: '-' :: o.name, V] (.runs c) ∧ f c = some V ∧ c.exePath = E) := by
  have ht : o.takes = .text := by cases o <;> simp [textField] at ho <;> rfl
  have hf := two_fine E V o hE hV hx (by rw [ht]; simp)
  have hno : ∀ o', o' = Opt.help ∨ o' = Opt.version → times o' [.opt .exePath (some E), .opt o (some V)] = 0 := by
    rintro o' (rfl | rfl)
    · have : o ≠ .help := by rintro rfl; simp [Opt.takes] at ht
      simp [times, this]
    · have : o ≠ .version := by rintro rfl; simp [Opt.takes] at ht
      simp [times, this]
  have hg : given o [.opt .exePath (some E), .opt o (some V)] = [V] := by
    have : ¬Opt.exePath = o := fun h => hx h.symm
    simp [given, this]
  have hge : given .exePath [.opt .exePath (some E), .opt o (some V)] = [E] := by simp [given, hx]
  have fin : ∀ ws, Scan posix ws [.opt .exePath (some E), .opt o (some V)] →
      ∃ c, MainDoes posix junk (a :: ws) (.runs c) ∧ f c = some V ∧ c.exePath = E := by
    intro ws hs
    obtain ⟨c, hc⟩ := main_runs (junk := junk) (a := a) hs hf (hno _ (Or.inl rfl)) (hno _ (Or.inr rfl))
    refine ⟨c, hc, C54_verbatim _ _ _ _ _ c o f V hc hs ho hg, ?_⟩
    have := C54_verbatim _ _ _ _ _ c .exePath _ E hc hs rfl hge
    simpa using this
  refine ⟨fin _ (two_scan posix E V o (by rw [ht]; decide)), fin _ ?_⟩
  exact .spaced c!"exe_path" E .exePath _ _ (calls_full .exePath) (by decide)
    (.spaced o.name V o _ _ (calls_full o) (by rw [ht]; decide) .nil)

example : textField .logPath = some (fun c => some c.logPath) ∧ c!"--a=b c" ≠ [] := ⟨rfl, by decide⟩

/-! ## C56 -/

/-- The states the loop of `arg_parse_tagged` goes through. -/
inductive Loop (posix : Bool) (argc : Nat) : PState → PState → Prop
  | start (p : PState) : Loop posix argc p p
  | step (p q r : PState) : Loop posix argc p q → taggedStep posix maxErrors mainTable argc q = .inl r → Loop posix argc p r

theorem handle_length {r : GRet} {p p' : PState} (h : handle maxErrors mainTable r p = some p') (hl : p.errs.length ≤ maxErrors) :
    p'.errs.length ≤ maxErrors := by
  have hscan : ∀ (i : Nat) (p : PState), p.errs.length ≤ maxErrors → (scanInto maxErrors mainTable i p).errs.length ≤ maxErrors := by
    intro i p hl
    unfold scanInto
    split
    · exact hl
    · simp only
      split
      · exact hl
      · exact registerError_length _ _ hl
  unfold handle at h
  split at h
  · simp at h
  · simp only [Option.some.injEq] at h
    subst h
    apply hscan
    split
    · exact registerError_length _ _ hl
    · exact hl
  · split at h
    · simp only [Option.some.injEq] at h; subst h; exact registerError_length _ _ hl
    · simp only [Option.some.injEq] at h; subst h; exact registerError_length _ _ hl
  · simp only [Option.some.injEq] at h; subst h; exact registerError_length _ _ hl
  · split at h
    · simp only [Option.some.injEq] at h; subst h; exact registerError_length _ _ hl
    · simp only [Option.some.injEq] at h; subst h; exact hscan _ _ hl

/-- C56, while parsing: at no time are there more than 10 rows, also on command lines that are never finished with. -/
theorem C56_always_bounded (posix : Bool) (argv : List CStr) (p : PState) (h : Loop posix argv.length (startState argv) p) :
    p.errs.length ≤ 10 := by
  induction h with
  | start => simp [startState]
  | step q r _ hst hq =>
    unfold taggedStep at hst
    simp only at hst
    split at hst
    · rename_i p' hh
      simp only [Sum.inl.injEq] at hst
      subst hst
      exact handle_length hh hq
    · simp at hst

/-- C56: at most 10 errors are reported; at least one exactly when there is a mistake. -/
theorem C56_error_table (posix : Bool) (a : CStr) (ws : List CStr) (fuel : Nat) (v : Nat → Slot) (errs : List ErrRec) (is : List Item)
    (hs : Scan posix ws is) (h : argParse posix maxErrors mainTable (a :: ws) fuel = some (v, errs)) :
    errs.length ≤ 10 ∧ (errs = [] ↔ Fine is) := by
  obtain ⟨evs, rest, h1, h2⟩ := scanWords_of_scan hs
  have h3 := argParse_scan (posix := posix) (max := maxErrors) mainShort_eq a ws
  have h1' : scanWords posix (longOptions mainTable 0) ws = some (evs, rest) := h1
  rw [h1'] at h3
  obtain ⟨k, h3⟩ := h3
  have h4 : argParse posix maxErrors mainTable (a :: ws) (fuel + k) = some (v, errs) := by
    unfold argParse at h ⊢
    rw [if_neg (by simp)] at h ⊢
    split at h
    · simp at h
    · rename_i p hp
      rw [tagged_mono hp]
      exact h
  rw [h3] at h4
  simp only [Option.some.injEq] at h4
  have h5 : errs = (parseResult maxErrors mainTable evs rest).2 := by rw [h4]
  rw [h5]
  exact ⟨parseResult_length _ _ _ _, parse_errs_nil hs h2⟩

example : Loop false [c!"j", c!"-a-"].length (startState [c!"j", c!"-a-"]) (startState [c!"j", c!"-a-"]) := .start _

/-! ## C58 -/

section
open Spec.Json

/-- Reading on: the tokens of a piece of text and the state after it. -/
def lexRun : LexState → CStr → Option (List Tok × LexState)
  | st, [] => some ([], st)
  | .idle, c :: r =>
    match start c with
    | none => none
    | some (ts, st) => (lexRun st r).map fun x => (ts ++ x.1, x.2)
  | .inStr acc, c :: r =>
    if c = '"' then (lexRun .idle r).map fun x => (.str acc :: x.1, x.2)
    else if c = '\\' ∨ c.toNat < 32 then none
    else lexRun (.inStr (acc ++ [c])) r
  | .inNum acc, c :: r =>
    if (digit c).isSome then lexRun (.inNum (acc ++ [c])) r
    else
      match jsonInt acc, start c with
      | some n, some (ts, st) => (lexRun st r).map fun x => (.num n :: ts ++ x.1, x.2)
      | _, _ => none

theorem lex_append (s rest : CStr) : ∀ (st : LexState) (ts : List Tok) (st' : LexState), lexRun st s = some (ts, st') →
    lex st (s ++ rest) = (lex st' rest).map (ts ++ ·) := by
  induction s with
  | nil => intro st ts st' h; cases st <;> simp [lexRun] at h <;> obtain ⟨rfl, rfl⟩ := h <;> simp
  | cons c r ih =>
    intro st ts st' h
    cases st with
    | idle =>
      simp only [lexRun] at h
      split at h
      · simp at h
      · rename_i ts1 st1 hs
        cases hr : lexRun st1 r with
        | none => simp [hr] at h
        | some x =>
          obtain ⟨t2, s2⟩ := x
          simp [hr] at h
          obtain ⟨rfl, rfl⟩ := h
          rw [List.cons_append, lex, hs]
          simp only [ih _ _ _ hr]
          cases lex s2 rest <;> simp
    | inStr acc =>
      simp only [lexRun] at h
      rw [List.cons_append, lex]
      split at h
      · rename_i hc
        rw [if_pos hc]
        cases hr : lexRun .idle r with
        | none => simp [hr] at h
        | some x =>
          obtain ⟨t2, s2⟩ := x
          simp [hr] at h
          obtain ⟨rfl, rfl⟩ := h
          rw [ih _ _ _ hr]
          cases lex s2 rest <;> simp
      · rename_i hc
        rw [if_neg hc]
        split at h
        · simp at h
        · rename_i hc2
          rw [if_neg hc2]
          exact ih _ _ _ h
    | inNum acc =>
      simp only [lexRun] at h
      rw [List.cons_append, lex]
      split at h
      · rename_i hc
        rw [if_pos hc]
        exact ih _ _ _ h
      · rename_i hc
        rw [if_neg hc]
        split at h
        · rename_i n ts1 st1 hj hs
          cases hr : lexRun st1 r with
          | none => simp [hr] at h
          | some x =>
            obtain ⟨t2, s2⟩ := x
            simp [hr] at h
            obtain ⟨rfl, rfl⟩ := h
            rw [hj, hs]
            simp only [ih _ _ _ hr]
            cases lex s2 rest <;> simp
        · simp at h

/-- A value and the text up to the next value. -/
theorem lex_member (x : Int) (lit rest : CStr) (ts : List Tok) (h : lexRun .idle lit = some (ts, .idle)) (out : List Tok)
    (hr : lex .idle rest = some out) : lex .idle (showInt x ++ ((',' :: lit) ++ rest)) = some (.num x :: .comma :: (ts ++ out)) := by
  rw [List.cons_append, lex_showInt x ',' (lit ++ rest) (by decide) [.comma] .idle rfl, lex_append _ _ _ _ _ h, hr]
  rfl

/-- C58: the printed text is a JSON object whose members are exactly the seven fields of the result. -/
theorem C58_json (r : Result) : readObject (resultText r) =
    some [(c!"cpu_time", r.cpuTime), (c!"real_time", r.realTime), (c!"memory", r.memory), (c!"signal", r.signal),
      (c!"exit_code", r.exitCode), (c!"error", r.error), (c!"result", r.result)] := by
  have h7 : lex .idle (showInt r.result ++ c!"\n}") = some [.num r.result, .rbrace] :=
    lex_showInt r.result '\n' ['}'] (by decide) [] .idle rfl
  have h6 := lex_member r.error c!"\n    \"result\": " _ [.str c!"result", .colon] rfl _ h7
  have h5 := lex_member r.exitCode c!"\n    \"error\": " _ [.str c!"error", .colon] rfl _ h6
  have h4 := lex_member r.signal c!"\n    \"exit_code\": " _ [.str c!"exit_code", .colon] rfl _ h5
  have h3 := lex_member r.memory c!"\n    \"signal\": " _ [.str c!"signal", .colon] rfl _ h4
  have h2 := lex_member r.realTime c!"\n    \"memory\": " _ [.str c!"memory", .colon] rfl _ h3
  have h1 := lex_member r.cpuTime c!"\n    \"real_time\": " _ [.str c!"real_time", .colon] rfl _ h2
  have h0 := lex_append c!"{\n    \"cpu_time\": " _ .idle [.lbrace, .str c!"cpu_time", .colon] .idle rfl |>.trans (congrArg _ h1)
  unfold readObject resultText
  simp only [List.append_assoc]
  rw [h0]
  rfl

/-- The seven members of a result. -/
def sevenMembers (r : Result) : List (CStr × Int) :=
  [(c!"cpu_time", r.cpuTime), (c!"real_time", r.realTime), (c!"memory", r.memory), (c!"signal", r.signal),
   (c!"exit_code", r.exitCode), (c!"error", r.error), (c!"result", r.result)]

theorem resultText_lines (r : Result) : resultText r = '{' :: '\n' :: JsonText.lines (sevenMembers r) := by
  simp [resultText, JsonText.lines, sevenMembers]

theorem seven_names (r : Result) : ∀ m ∈ sevenMembers r, JsonText.GoodName m.1 := by
  have : ∀ k ∈ [c!"cpu_time", c!"real_time", c!"memory", c!"signal", c!"exit_code", c!"error", c!"result"],
      ∀ c ∈ k, c ≠ '"' ∧ c ≠ '\\' ∧ 32 ≤ c.toNat := by decide
  intro m hm
  refine this m.1 ?_
  simp only [sevenMembers, List.mem_cons, List.not_mem_nil, or_false] at hm
  rcases hm with rfl | rfl | rfl | rfl | rfl | rfl | rfl <;> simp

/-- C58, by the whole grammar of JSON (RFC 8259): the only value that the printed text denotes is the object of the seven fields. -/
theorem C58_only (lax : Bool) (r : Result) (v : JsonText.Value) : JsonText.Denotes lax (resultText r) v ↔ v = .ofInts (sevenMembers r) := by
  rw [resultText_lines]
  exact JsonText.denotes_object (by simp [sevenMembers]) (seven_names r) v

theorem C58_parse (lax : Bool) (r : Result) : JsonText.parse lax (resultText r) = some (.ofInts (sevenMembers r)) := by
  rw [resultText_lines]
  exact JsonText.parse_object (by simp [sevenMembers]) (seven_names r)

example : resultText ⟨1, -2, 3, 0, 0, 0, 4⟩ = c!"{\n    \"cpu_time\": 1,\n    \"real_time\": -2,\n    \"memory\": 3,\n    \"signal\": 0,\n    \"exit_code\": 0,\n    \"error\": 0,\n    \"result\": 4\n}" := by
  simp [resultText, showInt, showNat, digitChar]

end

/-! ## C19 -/

theorem started_euid {c : Config} {e : ChildEnv} {p q : Proc} (h : Started c e p q) :
    q.uid.e = if c.uid = keepId then p.uid.e else c.uid := by
  obtain ⟨rfl, ok, _⟩ := started_inv h
  rw [stateAtExec_eq, (afterSeccomp_ids c e _).1]
  have hg : ∀ p, (afterGid c p).uid = p.uid := by intro p; unfold afterGid; split <;> rfl
  unfold afterUid
  by_cases h1 : c.uid = keepId
  · rw [if_pos (show c.uid = castU32 (-1) from h1), if_pos h1, hg, (redirections_frame c p).2.1]
  · rw [if_neg (show ¬c.uid = castU32 (-1) from h1), if_neg h1]
    split <;> rfl

/-- C19: through the command line, a program that has started runs with effective user id 0 only if `--uid` was given a text for 0 or
-1; without `--uid` it runs as 65534. -/
theorem C19_not_root (posix : Bool) (junk : Cells) (a : CStr) (ws : List CStr) (is : List Item) (c : Config) (e : ChildEnv) (p q : Proc)
    (h : MainDoes posix junk (a :: ws) (.runs c)) (hs : Scan posix ws is) (hq : Started c e p q) :
    (q.uid.e = 0 → ∃ t, given .uid is = [t] ∧ (LooseIntText t 0 ∨ LooseIntText t (-1))) ∧
    (times .uid is = 0 → q.uid.e = 65534) := by
  obtain ⟨hf, hm, _⟩ := runs_inv hs h
  have heu := started_euid hq
  constructor
  · intro h0
    rw [h0] at heu
    obtain ⟨n, h1, h2⟩ := hm.uid
    have hc : castU32 n = 0 ∨ castU32 n = keepId := by
      rw [h2] at heu
      split at heu
      · rename_i hk; exact Or.inr hk
      · exact Or.inl heu.symm
    rcases h1 with ⟨t, g1, g2⟩ | ⟨_, g2⟩
    · refine ⟨t, g1, ?_⟩
      have hi := (intIs_isInt hf (o := .uid) rfl (d := 65534) (n := n) (Or.inl ⟨t, g1, g2⟩) g1).2
      unfold castU32 keepId at hc
      unfold IsInt INT_MIN INT_MAX at hi
      have : n = 0 ∨ n = -1 := by omega
      rcases this with rfl | rfl
      · exact Or.inl g2
      · exact Or.inr g2
    · subst g2; exact absurd hc (by decide)
  · intro h0
    have := (C49_defaults posix junk a ws is c h hs).uid h0
    rw [heu, this, if_neg (by decide)]

/-- C19, all ids: started by root without `--uid` and `--gid`, the program has 65534 for all its user and group ids and no other group. -/
theorem C19_default_ids (posix : Bool) (junk : Cells) (a : CStr) (ws : List CStr) (is : List Item) (c : Config) (e : ChildEnv)
    (p q : Proc) (h : MainDoes posix junk (a :: ws) (.runs c)) (hs : Scan posix ws is) (hq : Started c e p q)
    (hu : times .uid is = 0) (hg : times .gid is = 0) :
    q.uid = ⟨65534, 65534, 65534⟩ ∧ q.gid = ⟨65534, 65534, 65534⟩ ∧ q.groups = [65534] := by
  have hd := C49_defaults posix junk a ws is c h hs
  have h1 := hd.uid hu
  have h2 := hd.gid hg
  have := C18_privileges_dropped c e p q (by rw [h1]; decide) (by rw [h2]; decide) hq
  rw [h1, h2] at this
  exact this

/-- The sample command line runs, and its program starts when no call fails. -/
example (junk : Cells) : ∃ c q, MainDoes false junk (c!"j" :: sampleLine) (.runs c) ∧
    Started c (sampleChild fun _ => false) sampleProc q := by
  obtain ⟨c, hc⟩ := sample_runs false junk c!"j"
  have hd := C49_defaults _ _ _ _ _ c hc (sample_scan false)
  have hmem := (C47_documented_form _ _ _ _ _ c .maxMemory _ c!"64MB" _ hc (sample_scan false) rfl (by decide) intText_64MB).1
  have hcfg : ConfigOk c := by
    refine ⟨Or.inl (hd.cpu (by decide)), Or.inl (hd.real (by decide)), Or.inr ?_, Or.inl (hd.nproc (by decide)),
      Or.inl (hd.out (by decide)), ?_⟩
    · rw [hmem]; decide
    · rw [hd.stack (by decide)]; decide
  obtain ⟨q, hq⟩ := C17_starts c (sampleChild fun _ => false) sampleProc hcfg (by rw [hd.cpu (by decide)]; decide) rfl rfl
    (by rw [hd.seccomp (by decide)]; simp) (fun _ _ => rfl)
  exact ⟨c, q, hc, _, _, _, hq⟩

/-! ## C70 -/

/-- The three calls of `strtol0X`. -/
def prefixCalls : List (Char × Nat) := [('X', 16), ('O', 8), ('B', 2)]

/-- C70, the full claim: reading an integer option never overflows a signed multiplication. -/
def C70_full : Prop := ∀ (t : CStr), ∀ xb ∈ prefixCalls, strtol0XProduct t xb.1 xb.2 ≠ some .ub

/-- C70 is false of the code: `--max_memory=-0x-8000000000000000` multiplies -1 by LONG_MIN. -/
theorem C70_false : ¬C70_full := fun h => h c!"-0x-8000000000000000" ('X', 16) (by decide) rfl

theorem strtol_long {s : CStr} {base : Nat} {v : Int} {e : CStr} (h : strtol s base = some (v, e)) :
    IsLong v ∧ ('-' ∉ s → 0 ≤ v) := by
  unfold strtol at h
  simp only at h
  split at h
  · simp at h
  · simp only [Option.some.injEq, Prod.mk.injEq] at h
    rw [← h.1]
    constructor
    · unfold IsLong clampLong LONG_MIN LONG_MAX
      omega
    · intro hm
      have : (takeSign (s.dropWhile isSpaceC)).1 = false := by
        unfold takeSign
        split
        · rename_i r hr
          exact absurd ((List.dropWhile_sublist _).subset (by rw [hr]; simp)) hm
        · rfl
        · rfl
      rw [this]
      simp only [Bool.false_eq_true, if_false]
      unfold clampLong LONG_MIN LONG_MAX
      omega

/-- C70, the part that holds: no overflow in a text with at most one '-', and never in the multiplication for KB, MB or GB.
Missing: a '-' before and one after the base prefix (`C70_false`). -/
theorem C70_no_overflow_partial (t : CStr) (ht : t.count '-' ≤ 1) :
    (∀ xb ∈ prefixCalls, strtol0XProduct t xb.1 xb.2 ≠ some .ub) ∧
    (∀ (val m v : Int), m ∈ [1024, 1048576, 1073741824] → applySuffix val m = .ok v → IsInt v) := by
  constructor
  · intro xb _ h
    unfold strtol0XProduct at h
    simp only at h
    split at h
    · rename_i x r hp
      split at h
      · split at h
        · rename_i v e hst
          obtain ⟨h1, h2⟩ := strtol_long hst
          simp only [Option.some.injEq] at h
          have hub : ∀ x y, mulLong x y = .ub → ¬IsLong (x * y) := by
            intro x y hxy
            unfold mulLong at hxy
            split at hxy
            · simp at hxy
            · assumption
          have h := hub _ _ h
          cases hneg : (takeSign (t.dropWhile isSpaceC)).1 with
            | false =>
              simp only [hneg, Bool.false_eq_true, if_false, Int.one_mul] at h
              exact h h1
            | true =>
              apply h
              rw [hneg]
              have hd : t.dropWhile isSpaceC = '-' :: '0' :: x :: r := by
                unfold takeSign at hneg hp
                split at hneg
                · rename_i q hq
                  rw [hq] at hp
                  simp only at hp
                  rw [hq, hp]
                · simp at hneg
                · simp at hneg
              have hr : '-' ∉ r := by
                intro hm
                have c1 : (t.dropWhile isSpaceC).count '-' ≤ 1 := Nat.le_trans ((List.dropWhile_sublist _).count_le _) ht
                rw [hd] at c1
                have c2 : 0 < r.count '-' := List.count_pos_iff.mpr hm
                have c3 := List.count_le_count_cons (a := '-') (b := x) (l := r)
                have c4 : (('-' :: '0' :: x :: r)).count '-' = (x :: r).count '-' + 1 := by simp
                omega
              have := h2 hr
              simp only [if_true]
              unfold IsLong LONG_MIN LONG_MAX at *
              omega
        · simp at h
      · simp at h
    · simp at h
  · intro val m v hm h
    unfold applySuffix at h
    split at h
    · simp at h
    · rename_i hr
      simp only [Except.ok.injEq] at h
      subst h
      simp at hm
      unfold IsInt INT_MIN INT_MAX at *
      rcases hm with rfl | rfl | rfl
      · have e1 : Int.tdiv 2147483647 1024 = 2097151 := by decide
        have e2 : Int.tdiv (-2147483648) 1024 = -2097152 := by decide
        rw [e1, e2] at hr; omega
      · have e1 : Int.tdiv 2147483647 1048576 = 2047 := by decide
        have e2 : Int.tdiv (-2147483648) 1048576 = -2048 := by decide
        rw [e1, e2] at hr; omega
      · have e1 : Int.tdiv 2147483647 1073741824 = 1 := by decide
        have e2 : Int.tdiv (-2147483648) 1073741824 = -2 := by decide
        rw [e1, e2] at hr; omega

theorem digitsValue_grows (base : Nat) (hb : 0 < base) (a b : CStr) (acc : Nat) :
    digitsValue base acc a ≤ digitsValue base acc (a ++ b) := by
  have key : ∀ (b : CStr) (acc : Nat), acc ≤ digitsValue base acc b := by
    intro b
    induction b with
    | nil => exact fun _ => Nat.le_refl _
    | cons c b ih =>
      intro acc
      refine Nat.le_trans ?_ (ih _)
      exact Nat.le_trans (Nat.le_mul_of_pos_right acc hb) (Nat.le_add_right ..)
  induction a generalizing acc with
  | nil => exact key b acc
  | cons c a ih => exact ih _

theorem mulLong_ub {neg : Bool} {v : Int} (hv : IsLong v) : mulLong (if neg then -1 else 1) v = .ub ↔ neg = true ∧ v = LONG_MIN := by
  unfold mulLong
  unfold IsLong LONG_MIN LONG_MAX at *
  cases neg <;> simp <;> omega

theorem product_lead (s : CStr) (X : Char) (base : Nat) : strtol0XProduct s X base =
    (match (lead s).2 with
     | '0' :: x :: r =>
       if toUpperC x = toUpperC X then
         match strtol r base with
         | some (v, _) => some (mulLong (if (lead s).1 then -1 else 1) v)
         | none => none
       else none
     | _ => none) := rfl

theorem sign_neg {sg : CStr} {k : Int} (h : Sign sg k) (hk : k < 0) : sg = ['-'] := by
  rcases h with ⟨_, rfl⟩ | ⟨_, rfl⟩ | ⟨h, _⟩
  · omega
  · omega
  · exact h

/-- C70, exactly: the multiplication overflows for these texts and no others. -/
theorem C70_exact (t : CStr) : (∃ xb ∈ prefixCalls, strtol0XProduct t xb.1 xb.2 = some .ub) ↔ TwiceNegative t := by
  constructor
  · rintro ⟨⟨X, base⟩, hm, h⟩
    have hb : base ≤ 16 := by
      simp [prefixCalls] at hm
      omega
    obtain ⟨pre, sg, h1, h2, h3⟩ := lead_spec t
    rw [product_lead] at h
    split at h
    · rename_i x r heq
      split at h
      · rename_i hx
        split at h
        · rename_i v e hst
          simp only [Option.some.injEq] at h
          obtain ⟨hneg, rfl⟩ := (mulLong_ub (strtol_long hst).1).1 h
          obtain ⟨pre', sg', pf', ds, k, m, g1, g2, g3, g4, g5, g6⟩ := strtol_spec hb hst
          have hlow : k * (m : Int) ≤ LONG_MIN := by
            unfold clampLong LONG_MAX LONG_MIN at *
            split at g6
            · omega
            · split at g6 <;> omega
          have hk : k = -1 ∨ k = 1 := by
            rcases g3 with ⟨_, h⟩ | ⟨_, h⟩ | ⟨_, h⟩ <;> simp [h]
          have hkm : k = -1 ∧ 9223372036854775808 ≤ m := by
            unfold LONG_MIN at hlow
            rcases hk with rfl | rfl <;> omega
          refine ⟨pre, ['0', x], pre', pf', ds, e, base, m, ?_, h1, g2, ?_, by simp, g4, g5, hkm.2⟩
          · rw [hneg] at h2
            have e1 := sign_neg h2 (by decide)
            have e2 := sign_neg g3 (by omega)
            subst e1 e2
            rw [h3, heq, g1]
            simp
          · simp [prefixCalls] at hm
            rcases hm with ⟨rfl, rfl⟩ | ⟨rfl, rfl⟩ | ⟨rfl, rfl⟩ <;> simp only [upper_X, upper_O, upper_B] at hx <;>
              rcases hx with rfl | rfl <;> simp [Prefix]
        · cases h
      · cases h
    · cases h
  · rintro ⟨pre, pf, pre', pf', ds, e, base, m, rfl, hp, hp', hpf, hne, hpf', hd, hbig⟩
    have hX : ∃ X x, (X, base) ∈ prefixCalls ∧ pf = ['0', x] ∧ toUpperC x = toUpperC X := by
      rcases hpf with ⟨h, _⟩ | ⟨h, rfl⟩ | ⟨h, rfl⟩ | ⟨h, rfl⟩
      · exact absurd h hne
      all_goals simp at h
      · rcases h with rfl | rfl
        · exact ⟨'X', 'x', by decide, rfl, by decide⟩
        · exact ⟨'X', 'X', by decide, rfl, by decide⟩
      · rcases h with rfl | rfl
        · exact ⟨'O', 'o', by decide, rfl, by decide⟩
        · exact ⟨'O', 'O', by decide, rfl, by decide⟩
      · rcases h with rfl | rfl
        · exact ⟨'B', 'b', by decide, rfl, by decide⟩
        · exact ⟨'B', 'B', by decide, rfl, by decide⟩
    obtain ⟨X, x, hm, rfl, hx⟩ := hX
    refine ⟨_, hm, ?_⟩
    have hb : base ≤ 16 := by
      simp [prefixCalls] at hm
      omega
    have hb0 : 0 < base := by
      simp [prefixCalls] at hm
      omega
    obtain ⟨d1, d2, d3⟩ := (numeral_iff hb ds m).1 hd
    have hsk : skipHexPrefix base (pf' ++ (ds ++ e)) = ds ++ e := by
      match ds, d1, d2, d3 with
      | [c], _, d2, d3 =>
        exfalso
        simp only [List.all_cons, List.all_nil, Bool.and_true, isDigitIn] at d2
        split at d2
        · rename_i d hd'
          simp only [digitsValue, hd', Option.getD_some, decide_eq_true_eq] at d2 d3
          omega
        · cases d2
      | c :: c' :: ds, _, d2, _ =>
        simp only [List.all_cons, Bool.and_eq_true] at d2
        rcases hpf' with rfl | ⟨rfl, hpf'⟩
        · simp only [List.nil_append, List.cons_append]
          unfold skipHexPrefix
          split
          · rename_i y d r heq
            rw [if_neg]
            rintro ⟨rfl, hy, _⟩
            simp only [List.cons.injEq] at heq
            rw [heq.2.1] at d2
            rcases hy with rfl | rfl
            · exact absurd d2.2.1 (by decide)
            · exact absurd d2.2.1 (by decide)
          · rfl
        · simp at hpf'
          rcases hpf' with rfl | rfl <;> simp [skipHexPrefix, d2.1]
    have hpl : Plain (pf' ++ (ds ++ e)) := second_plain (e := e) hb hpf' hd
    obtain ⟨neg, hl, hk⟩ := lead_of hp' (Or.inr (Or.inr ⟨rfl, rfl⟩)) hpl
    obtain ⟨neg2, hl2, hk2⟩ := lead_of (rest := '0' :: x :: (pre' ++ (['-'] ++ (pf' ++ (ds ++ e))))) hp (Or.inr (Or.inr ⟨rfl, rfl⟩))
      ⟨'0', _, rfl, by decide, by decide, by decide⟩
    have hn : neg = true := by cases neg <;> simp [sgn] at hk ⊢
    have hn2 : neg2 = true := by cases neg2 <;> simp [sgn] at hk2 ⊢
    subst hn hn2
    have hst : ∃ e', strtol (pre' ++ (['-'] ++ (pf' ++ (ds ++ e)))) base = some (LONG_MIN, e') := by
      rw [strtol_lead, hl]
      simp only [hsk]
      have ht : (ds ++ e).takeWhile (isDigitIn base) = ds ++ e.takeWhile (isDigitIn base) := by
        clear hsk hpl hl hl2 hd hbig d1 d3
        induction ds with
        | nil => rfl
        | cons c ds ih =>
          simp only [List.all_cons, Bool.and_eq_true] at d2
          simp [d2.1, ih d2.2]
      rw [ht, if_neg (by simp [d1])]
      refine ⟨(ds ++ e).dropWhile (isDigitIn base), ?_⟩
      have hg := digitsValue_grows base hb0 ds (e.takeWhile (isDigitIn base)) 0
      rw [d3] at hg
      congr 2
      unfold clampLong LONG_MAX LONG_MIN
      simp only [if_true]
      split
      · omega
      · split <;> omega
    obtain ⟨e', hst⟩ := hst
    have hl2' : lead (pre ++ '-' :: (['0', x] ++ (pre' ++ '-' :: (pf' ++ (ds ++ e))))) =
        (true, '0' :: x :: (pre' ++ (['-'] ++ (pf' ++ (ds ++ e))))) := by
      rw [← hl2]
      simp
    rw [product_lead, hl2']
    simp only [hx, if_true, hst]
    rfl

example : TwiceNegative c!" -0X +-0xFFFFFFFFFFFFFFFF" → False := fun h => by
  obtain ⟨xb, h1, h2⟩ := (C70_exact _).2 h
  revert h2
  have : ∀ xb ∈ prefixCalls, strtol0XProduct c!" -0X +-0xFFFFFFFFFFFFFFFF" xb.1 xb.2 ≠ some .ub := by decide +kernel
  exact this xb h1

example : TwiceNegative c!" -0b\t-1000000000000000000000000000000000000000000000000000000000000000KB" :=
  (C70_exact _).1 ⟨('B', 2), by decide, by decide +kernel⟩

example : (c!"-0x7fffffff").count '-' ≤ 1 ∧ strtol0XProduct c!"-0x7fffffff" 'X' 16 = some (.ok (-2147483647)) := ⟨by decide, rfl⟩

end Judger
