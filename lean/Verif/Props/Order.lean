import Verif.Props.Cli
import Verif.Spec.Order

/-! # C107: the order of the options -/

set_option autoImplicit false

namespace Judger

open Judger.Spec Judger.Spec.Cli

theorem given_perm (o : Opt) {is is' : List Item} (h : is.Perm is') : (given o is).Perm (given o is') := by
  induction h with
  | nil => exact .refl _
  | cons x _ ih =>
    match x with
    | .mistake => exact ih
    | .opt o' none => exact ih
    | .opt o' (some v) =>
      simp only [given]
      split
      · exact ih.cons v
      · exact ih
  | swap x y l =>
    match x, y with
    | .mistake, y => cases y with
      | mistake => exact .refl _
      | opt o' v => cases v <;> simp only [given] <;> exact .refl _
    | .opt o' none, y => cases y with
      | mistake => exact .refl _
      | opt o' v => cases v <;> simp only [given] <;> exact .refl _
    | .opt o' (some v), .mistake => simp only [given]; exact .refl _
    | .opt o' (some v), .opt o'' none => simp only [given]; exact .refl _
    | .opt o' (some v), .opt o'' (some v') =>
      simp only [given]
      split <;> split <;> first | exact .refl _ | exact .swap _ _ _
  | trans _ _ ih ih' => exact ih.trans ih'

theorem times_perm (o : Opt) {is is' : List Item} (h : is.Perm is') : times o is = times o is' := by
  induction h with
  | nil => rfl
  | cons x _ ih =>
    match x with
    | .mistake => exact ih
    | .opt o' v => simp only [times, ih]
  | swap x y l =>
    match x, y with
    | .mistake, .mistake => rfl
    | .mistake, .opt o' v => rfl
    | .opt o' v, .mistake => rfl
    | .opt o' v, .opt o'' v' => simp only [times]; split <;> split <;> rfl
  | trans _ _ ih ih' => exact ih.trans ih'

theorem fine_perm {is is' : List Item} (hf : Fine is) (h : is.Perm is') : Fine is' where
  noMistake := fun hm => hf.noMistake (h.mem_iff.2 hm)
  filled := fun o v hm => hf.filled o v (h.mem_iff.2 hm)
  ints := fun o v hm => hf.ints o v (h.mem_iff.2 hm)
  often := fun o => times_perm o h ▸ hf.often o
  exe := times_perm .exePath h ▸ hf.exe

theorem given_same {is is' : List Item} (hf : Fine is) (h : is.Perm is') (ha : given .args is = given .args is')
    (he : given .env is = given .env is') (o : Opt) : given o is = given o is' := by
  have hp := given_perm o h
  by_cases h1 : o = .args
  · rw [h1]; exact ha
  by_cases h2 : o = .env
  · rw [h2]; exact he
  have hl : (given o is).length ≤ 1 := by
    refine Nat.le_trans (given_length_le o is) (Nat.le_trans (hf.often o) ?_)
    cases o <;> first | exact Nat.le_refl _ | contradiction
  match hg : given o is, hl with
  | [], _ => rw [hg] at hp; exact hp.nil_eq
  | [v], _ => rw [hg] at hp; exact (List.singleton_perm.1 hp)

theorem meansScalars_same {is is' : List Item} {c : Config} (h : MeansScalars is c) (hg : ∀ o, given o is = given o is') : MeansScalars is' c := by
  obtain ⟨h1, h2, h3, h4, h5, h6, h7, h8, h9, h10, h11, h12, h13, h14, h15⟩ := h
  unfold IntIs at h1 h2 h3 h4 h5 h6 h7 h14 h15
  unfold TextIs at h9 h10 h11 h12
  simp only [hg] at h1 h2 h3 h4 h5 h6 h7 h8 h9 h10 h11 h12 h13 h14 h15
  exact ⟨h1, h2, h3, h4, h5, h6, h7, h8, h9, h10, h11, h12, h13, h14, h15⟩

theorem reordered_runs {posix : Bool} {junk junk' : Cells} {a a' : CStr} {ws ws' : List CStr} {is is' : List Item} {c : Config}
    (hs : Scan posix ws is) (hs' : Scan posix ws' is') (hp : is.Perm is') (ha : given .args is = given .args is')
    (he : given .env is = given .env is') (h : MainDoes posix junk (a :: ws) (.runs c)) : MainDoes posix junk' (a' :: ws') (.runs c) := by
  obtain ⟨hf, hm, hargs, henv⟩ := runs_inv hs h
  have hg := given_same hf hp ha he
  obtain ⟨c', hc'⟩ : ∃ c', MainDoes posix junk' (a' :: ws') (.runs c') := by
    cases main_decides hs h with
    | runs _ h1 h2 => exact main_runs hs' (fine_perm hf hp) (times_perm .help hp ▸ h1) (times_perm .version hp ▸ h2)
  obtain ⟨hf', hm', hargs', henv'⟩ := runs_inv hs' hc'
  have hm2 := meansScalars_same hm hg
  have hexe : c.exePath = c'.exePath := by
    have a1 := hm2.exe
    rw [hm'.exe] at a1
    simpa using a1.symm
  have : c = c' := MeansScalars.unique hf' hm2 hm' (by rw [hargs, hargs', hexe, ha, he]) (by rw [henv, henv', he])
  rw [this]; exact hc'

/-- C107, for all command lines: two that give the same options with the same values, however written and in whatever order, the values of `--args` and
those of `--env` each in the same order, make the same run; and if one asks for help or the version, so does the other. -/
theorem C107_items (posix : Bool) (junk junk' : Cells) (a a' : CStr) (ws ws' : List CStr) (is is' : List Item) (hs : Scan posix ws is)
    (hs' : Scan posix ws' is') (hp : is.Perm is') (ha : given .args is = given .args is') (he : given .env is = given .env is') :
    (∀ c, MainDoes posix junk (a :: ws) (.runs c) ↔ MainDoes posix junk' (a' :: ws') (.runs c)) ∧
    (MainDoes posix junk (a :: ws) .help ↔ MainDoes posix junk' (a' :: ws') .help) ∧
    (MainDoes posix junk (a :: ws) .version ↔ MainDoes posix junk' (a' :: ws') .version) ∧
    ((∃ recs, MainDoes posix junk (a :: ws) (.errors recs)) ↔ ∃ recs, MainDoes posix junk' (a' :: ws') (.errors recs)) := by
  have hh := times_perm .help hp
  have hv := times_perm .version hp
  obtain ⟨out, h1, h2⟩ := main_exists (junk := junk) (a := a) hs
  obtain ⟨out', h1', h2'⟩ := main_exists (junk := junk') (a := a') hs'
  refine ⟨fun c => ⟨reordered_runs hs hs' hp ha he, reordered_runs hs' hs hp.symm ha.symm he.symm⟩, ?_, ?_, ?_⟩
  · have p1 := C57_help_first_partial posix junk a ws is hs
    have p2 := C57_help_first_partial posix junk' a' ws' is' hs'
    constructor <;> intro h
    · cases main_decides hs h with
      | help h => exact (p2.1 (hh ▸ h) _).2 rfl
    · cases main_decides hs' h with
      | help h => exact (p1.1 (hh ▸ h) _).2 rfl
  · have p1 := C57_help_first_partial posix junk a ws is hs
    have p2 := C57_help_first_partial posix junk' a' ws' is' hs'
    constructor <;> intro h
    · cases main_decides hs h with
      | version h g => exact (p2.2 (hh ▸ h) (hv ▸ g) _).2 rfl
    · cases main_decides hs' h with
      | version h g => exact (p1.2 (hh ▸ h) (hv ▸ g) _).2 rfl
  · constructor <;> rintro ⟨recs, h⟩
    · cases main_decides hs h with
      | errors _ e1 e2 e3 =>
        cases h2' with
        | help g => omega
        | version _ g => omega
        | errors recs' => exact ⟨recs', h1'⟩
        | runs c _ _ g => exact absurd (fine_perm g hp.symm) e3
    · cases main_decides hs' h with
      | errors _ e1 e2 e3 =>
        cases h2 with
        | help g => omega
        | version _ g => omega
        | errors recs' => exact ⟨recs', h1⟩
        | runs c _ _ g => exact absurd (fine_perm g hp) e3

theorem words_scan (posix : Bool) (l : List (Opt × CStr)) (ht : ∀ x ∈ l, x.1.takes ≠ .nothing) :
    Scan posix (l.map word) (l.map fun x => .opt x.1 (some x.2)) := by
  induction l with
  | nil => exact .nil
  | cons x l ih =>
    exact .value x.1.name x.2 x.1 _ _ (calls_full _) (ht x List.mem_cons_self) (ih fun y hy => ht y (List.mem_cons_of_mem _ hy))

theorem words_given (o : Opt) (l : List (Opt × CStr)) : given o (l.map fun x => Item.opt x.1 (some x.2)) = valuesOf o l := by
  induction l with
  | nil => rfl
  | cons x l ih =>
    simp only [List.map_cons, given, ih, valuesOf, List.filter_cons, decide_eq_true_eq]
    split <;> rfl

/-- C107, in words: a line of words `--name=value` may be reordered. -/
theorem C107_order (posix : Bool) (junk : Cells) (a : CStr) (l l' : List (Opt × CStr)) (ht : ∀ x ∈ l, x.1.takes ≠ .nothing) (h : Reordered l l')
    (c : Config) : MainDoes posix junk (a :: l.map word) (.runs c) ↔ MainDoes posix junk (a :: l'.map word) (.runs c) :=
  (C107_items posix junk junk a a _ _ _ _ (words_scan posix l ht) (words_scan posix l' fun x hx => ht x (h.perm.mem_iff.2 hx))
    (h.perm.map _) (by rw [words_given, words_given, h.args]) (by rw [words_given, words_given, h.env])).1 c

/-- Non-vacuous: `--args=-l --exe_path=/bin/ls --args=/` and `--exe_path=/bin/ls --args=-l --args=/` make a run, the same. -/
example (posix : Bool) (junk : Cells) (a : CStr) :
    Reordered [(.args, c!"-l"), (.exePath, c!"/bin/ls"), (.args, c!"/")] [(.exePath, c!"/bin/ls"), (.args, c!"-l"), (.args, c!"/")] ∧
    ∃ c, MainDoes posix junk (a :: [(.exePath, c!"/bin/ls"), (.args, c!"-l"), (.args, c!"/")].map word) (.runs c) ∧
      c.args = [c!"/bin/ls", c!"-l", c!"/"] := by
  refine ⟨⟨.swap _ _ _, rfl, rfl⟩, ?_⟩
  have hs := words_scan posix [(.exePath, c!"/bin/ls"), (.args, c!"-l"), (.args, c!"/")] (by decide)
  obtain ⟨c, hc⟩ := main_runs (junk := junk) (a := a) hs
    { noMistake := by simp
      filled := by
        intro o v h
        simp only [List.map_cons, List.map_nil, List.mem_cons, Item.opt.injEq, Option.some.injEq, List.not_mem_nil, or_false] at h
        rcases h with ⟨_, rfl⟩ | ⟨_, rfl⟩ | ⟨_, rfl⟩ <;> simp
      ints := by
        intro o v h ht
        simp only [List.map_cons, List.map_nil, List.mem_cons, Item.opt.injEq, Option.some.injEq, List.not_mem_nil, or_false] at h
        rcases h with ⟨rfl, _⟩ | ⟨rfl, _⟩ | ⟨rfl, _⟩ <;> cases ht
      often := by intro o; cases o <;> decide
      exe := by decide } rfl rfl
  obtain ⟨_, hm, ha, _⟩ := runs_inv hs hc
  refine ⟨c, hc, ?_⟩
  have he := hm.exe
  rw [words_given] at he ha
  have he' : [c!"/bin/ls"] = [c.exePath] := he
  simp only [List.cons.injEq, and_true] at he'
  rw [ha, ← he']
  rfl

/-- The order of the arguments themselves is kept (C50), so reordering `--args` is another run. -/
theorem C107_arguments_keep_order (posix : Bool) (junk : Cells) (a : CStr) (ws ws' : List CStr) (is is' : List Item) (c : Config) (hs : Scan posix ws is)
    (hs' : Scan posix ws' is') (hn : (given .args is).length < 255) (hn' : (given .args is').length < 255)
    (h : MainDoes posix junk (a :: ws) (.runs c)) (h' : MainDoes posix junk (a :: ws') (.runs c)) : given .args is = given .args is' := by
  have h1 := C50_arguments_partial posix junk a ws is c h hs (.inl (by omega))
  have h2 := C50_arguments_partial posix junk a ws' is' c h' hs' (.inl (by omega))
  rw [h1] at h2
  exact (List.cons.inj h2).2

end Judger
