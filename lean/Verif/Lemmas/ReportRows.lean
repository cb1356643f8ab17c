import Verif.Lemmas.Report

/-! # The rows of the error report -/

set_option autoImplicit false

namespace Judger.Report

open Spec.Cli

/-- `f` appends `s` to a dynamic string, whatever is in it, as long as there is not more than 10^9 bytes. -/
def Adds (f : DStr → Option DStr) (s : CStr) : Prop :=
  ∀ d t, Rep d t → t.length + s.length ≤ 1000000000 → ∃ d', f d = some d' ∧ Rep d' (t ++ s)

theorem adds_cat {s : CStr} (hs : NoNul s) : Adds (dstrCat s) s := fun _ _ h hl => rep_cat h hs (by omega)

theorem adds_catf {s : CStr} (n : Nat) (hs : NoNul s) : Adds (dstrCatf n s) s := fun _ _ h hl => rep_catf n h hs (by omega)

theorem adds_option {name : CStr} (h1 : NoNul name) (h2 : ',' ∉ name) (h3 : name.length ≤ 190) (h4 : name ≠ []) (v : Option CStr)
    (hv : ∀ t, v = some t → NoNul t) {suffix : CStr} (hs : NoNul suffix) :
    Adds (printOption (some name) v suffix) ((optionText name v).take 198 ++ suffix) := by
  intro d t h hl
  obtain ⟨d', g1, g2⟩ := rep_option h h1 h2 h3 h4 v hv hs (by rw [List.length_append] at hl; omega)
  exact ⟨d', g1, by rw [← List.append_assoc]; exact g2⟩

theorem Adds.bind {f g : DStr → Option DStr} {a b : CStr} (hf : Adds f a) (hg : Adds g b) : Adds (fun d => (f d).bind g) (a ++ b) := by
  intro d t h hl
  rw [List.length_append] at hl
  obtain ⟨d1, f1, f2⟩ := hf d t h (by omega)
  obtain ⟨d2, g1, g2⟩ := hg d1 (t ++ a) f2 (by rw [List.length_append]; omega)
  exact ⟨d2, by simp only [f1, Option.bind_some, g1], by rw [← List.append_assoc]; exact g2⟩

theorem Adds.congr {f : DStr → Option DStr} {a b : CStr} (hf : Adds f a) (h : a = b) : Adds f b := h ▸ hf

/-! ## Names and placeholders -/

theorem name_ok (o : Opt) : NoNul o.name ∧ ',' ∉ o.name ∧ o.name.length ≤ 190 ∧ o.name ≠ [] := by
  cases o <;> decide

theorem about_ok (o : Opt) : NoNul o.about ∧ o.about.length ≤ 100 := by cases o <;> decide

/-- What stands for the value in messages. -/
def placeholder (o : Opt) : Option CStr :=
  match o.takes with
  | .nothing => none
  | .int => some c!"<n>"
  | .text => some c!"<str>"

theorem mainTexts_get (o : Opt) : mainTexts[Opt.ix o]? = some (placeholder o, o.about) := by cases o <;> rfl

theorem placeholder_ok (o : Opt) (t : CStr) (h : placeholder o = some t) : NoNul t := by
  revert h
  unfold placeholder
  cases o.takes <;> simp <;> rintro rfl <;> decide

theorem usage_eq (o : Opt) : (optionText o.name (placeholder o)).take 198 = o.usage := by cases o <;> decide

theorem usage_length (o : Opt) : o.usage.length ≤ 40 := by cases o <;> decide

theorem adds_usage (o : Opt) {suffix : CStr} (hs : NoNul suffix) :
    Adds (printOption (some o.name) (placeholder o) suffix) (o.usage ++ suffix) :=
  (adds_option (name_ok o).1 (name_ok o).2.1 (name_ok o).2.2.1 (name_ok o).2.2.2 _ (placeholder_ok o) hs).congr (by rw [usage_eq])

theorem adds_value (o : Opt) {v : CStr} (hv : NoNul v) {suffix : CStr} (hs : NoNul suffix) :
    Adds (printOption (some o.name) (some v) suffix) (withValue o v ++ suffix) :=
  adds_option (name_ok o).1 (name_ok o).2.1 (name_ok o).2.2.1 (name_ok o).2.2.2 _ (by rintro _ ⟨⟩; exact hv) hs

/-! ## One row -/

/-- The row argtable keeps for a mistake. -/
def toRec : Mistake → ErrRec
  | .unexpected w => ⟨.enomatch, none, some w⟩
  | .unknown w => ⟨.elongopt, none, some w⟩
  | .letter c => ⟨.badShort c, none, none⟩
  | .noValue w => ⟨.emissarg, none, some w⟩
  | .tooOften o v => ⟨.maxcount, some (Opt.ix o), if o.takes = .nothing then none else some v⟩
  | .notInteger o v => ⟨.badint, some (Opt.ix o), some v⟩
  | .tooLarge o v => ⟨.overflow, some (Opt.ix o), some v⟩
  | .absent o => ⟨.mincount, some (Opt.ix o), none⟩

/-- The text quoted in a mistake. -/
def quoted : Mistake → CStr
  | .unexpected w => w
  | .unknown w => w
  | .letter c => [c]
  | .noValue w => w
  | .tooOften _ v => v
  | .notInteger _ v => v
  | .tooLarge _ v => v
  | .absent _ => []

/-- What is wrong with integers is only said of integer options. -/
def Sensible : Mistake → Prop
  | .notInteger o _ => o.takes = .int
  | .tooLarge o _ => o.takes = .int
  | .absent o => o.takes ≠ .nothing
  | _ => True

theorem text_length (m : Mistake) : m.text.length ≤ (quoted m).length + 300 := by
  cases m with
  | tooOften o v =>
    simp only [Mistake.text, quoted]
    have := usage_length o
    split
    · simp; omega
    · simp [withValue]; omega
  | notInteger o v => have := usage_length o; simp [Mistake.text, quoted]; omega
  | tooLarge o v => have := usage_length o; simp [Mistake.text, quoted]; omega
  | absent o => have := usage_length o; simp [Mistake.text, quoted]; omega
  | _ => simp [Mistake.text, quoted]; try omega

theorem entry_lit {o : Opt} (h : o.takes = .nothing) : (Opt.entry o).kind = .lit := by simp [Opt.entry, h]
theorem entry_int {o : Opt} (h : o.takes = .int) : (Opt.entry o).kind = .int := by simp [Opt.entry, h]
theorem entry_str {o : Opt} (h : o.takes = .text) : (Opt.entry o).kind = .str := by simp [Opt.entry, h]

theorem printError_option {r : ErrRec} {o : Opt} (h : r.parent = some (Opt.ix o)) (d : DStr) :
    printError r d =
      match o.takes with
      | .nothing => litError (some o.name) (placeholder o) r.code d
      | .int => intError (some o.name) (placeholder o) r.code (r.argval.getD []) d
      | .text => strError (some o.name) (placeholder o) r.code (r.argval.getD []) d := by
  unfold printError
  simp only [h, mainTable_get, mainTexts_get]
  cases ht : o.takes <;> simp [Opt.entry, ht]

/-- Text of a row of the end entry. -/
def endText (n : Nat) (w : CStr) : CStr :=
  match n with
  | 1 => c!"too many errors to display"
  | 2 => c!"insufficient memory"
  | 3 => c!"unexpected argument \"" ++ w ++ c!"\""
  | 4 => c!"invalid option \"" ++ w ++ c!"\""
  | 5 => c!"option \"" ++ w ++ c!"\" requires an argument"
  | n => c!"invalid option \"-" ++ [Char.ofNat n] ++ c!"\""

theorem adds_progname : Adds (dstrCatf 4 (progname ++ c!": ")) c!"libjudger.so: " := adds_catf 4 (by decide)

theorem adds_line {f : DStr → Option DStr} {s : CStr} (h : Adds f s) :
    Adds (fun d => (dstrCatf 4 (progname ++ c!": ") d).bind fun d => (f d).bind (dstrCat c!"\n")) (reportLine s) :=
  (adds_progname.bind (h.bind (adds_cat (s := c!"\n") (by decide)))).congr (by simp [reportLine])

theorem adds_end (n : Nat) {w : CStr} (hw : NoNul w) (hn : Char.ofNat n ≠ nul) : Adds (endError n w) (reportLine (endText n w)) := by
  have hq : NoNul (c!"\"") := by decide
  match n, hn with
  | 0, hn => exact absurd (by decide) hn
  | 1, _ => exact adds_line (adds_cat (s := c!"too many errors to display") (by decide))
  | 2, _ => exact adds_line (adds_cat (s := c!"insufficient memory") (by decide))
  | 3, _ => exact adds_line (adds_catf 24 ((NoNul.append (s := c!"unexpected argument \"") (by decide) hw).append hq))
  | 4, _ => exact adds_line (adds_catf 19 ((NoNul.append (s := c!"invalid option \"") (by decide) hw).append hq))
  | 5, _ => exact adds_line (adds_catf 32 ((NoNul.append (s := c!"option \"") (by decide) hw).append (t := c!"\" requires an argument") (by decide)))
  | n + 6, hn =>
    have hc : NoNul [Char.ofNat (n + 6)] := by
      unfold NoNul
      simp only [List.mem_singleton]
      exact fun h => hn h.symm
    exact adds_line (adds_catf 20 ((NoNul.append (s := c!"invalid option \"-") (by decide) hc).append hq))

/-- What is printed for the row of a mistake. -/
def lineOf (m : Mistake) : CStr :=
  match m with
  | .letter c => reportLine (endText c.toNat [])
  | m => reportLine m.text

theorem lineOf_eq {m : Mistake} (h : ¬m.Control) (hc : NoNul (quoted m)) : lineOf m = reportLine m.text := by
  cases m with
  | letter c =>
    simp only [Mistake.Control, not_and, Nat.not_le] at h
    simp only [lineOf, Mistake.text]
    have h0 : c.toNat ≠ 0 := by
      intro h0
      apply hc
      have : c = nul := Char.toNat_inj.1 h0
      rw [this]
      simp [quoted]
    have h6 := h (by omega)
    unfold endText
    split <;> try omega
    rw [Char.ofNat_toNat]
  | _ => rfl

theorem adds_lit {o : Opt} : Adds (litError (some o.name) (placeholder o) .maxcount) (reportLine (c!"extraneous option " ++ o.usage)) := by
  refine Adds.congr (a := c!"libjudger.so: extraneous option " ++ (o.usage ++ c!"\n")) ?_ (by simp [reportLine])
  exact (adds_catf 22 (s := c!"libjudger.so: extraneous option ") (by decide)).bind (adds_usage o (by decide))

theorem adds_int_max {o : Opt} {v : CStr} (hv : NoNul v) :
    Adds (intError (some o.name) (placeholder o) .maxcount v) (reportLine (c!"excess option " ++ withValue o v)) := by
  refine Adds.congr (a := c!"libjudger.so: " ++ (c!"excess option " ++ (withValue o v ++ c!"\n"))) ?_ (by simp [reportLine])
  exact adds_progname.bind ((adds_cat (by decide)).bind (adds_value o hv (by decide)))

theorem adds_str_max {o : Opt} {v : CStr} (hv : NoNul v) :
    Adds (strError (some o.name) (placeholder o) .maxcount v) (reportLine (c!"excess option " ++ withValue o v)) := by
  refine Adds.congr (a := c!"libjudger.so: " ++ (c!"excess option " ++ (withValue o v ++ c!"\n"))) ?_ (by simp [reportLine])
  exact adds_progname.bind ((adds_cat (by decide)).bind (adds_value o hv (by decide)))

theorem adds_int_min {o : Opt} {v : CStr} :
    Adds (intError (some o.name) (placeholder o) .mincount v) (reportLine (c!"missing option " ++ o.usage)) := by
  refine Adds.congr (a := c!"libjudger.so: " ++ (c!"missing option " ++ (o.usage ++ c!"\n"))) ?_ (by simp [reportLine])
  exact adds_progname.bind ((adds_cat (by decide)).bind (adds_usage o (by decide)))

theorem adds_str_min {o : Opt} {v : CStr} :
    Adds (strError (some o.name) (placeholder o) .mincount v) (reportLine (c!"missing option " ++ o.usage)) := by
  refine Adds.congr (a := c!"libjudger.so: " ++ (c!"missing option " ++ (o.usage ++ c!"\n"))) ?_ (by simp [reportLine])
  exact adds_progname.bind ((adds_cat (by decide)).bind (adds_usage o (by decide)))

theorem adds_badint {o : Opt} {v : CStr} (hv : NoNul v) :
    Adds (intError (some o.name) (placeholder o) .badint v) (reportLine (c!"invalid argument \"" ++ v ++ c!"\" to option " ++ o.usage)) := by
  refine Adds.congr (a := c!"libjudger.so: " ++ ((c!"invalid argument \"" ++ v ++ c!"\" to option ") ++ (o.usage ++ c!"\n"))) ?_
    (by simp [reportLine])
  exact adds_progname.bind ((adds_catf 32 ((NoNul.append (by decide) hv).append (by decide))).bind (adds_usage o (by decide)))

theorem adds_overflow {o : Opt} {v : CStr} (hv : NoNul v) : Adds (intError (some o.name) (placeholder o) .overflow v)
    (reportLine (c!"integer overflow at option " ++ o.usage ++ c!" (" ++ v ++ c!" is too large)")) := by
  refine Adds.congr (a := c!"libjudger.so: " ++ ((c!"integer overflow at option " ++ (o.usage ++ c!" ")) ++ (c!"(" ++ v ++ c!" is too large)\n"))) ?_
    (by simp [reportLine])
  have h1 : Adds (fun d => (dstrCat c!"integer overflow at option " d).bind (printOption (some o.name) (placeholder o) c!" "))
      (c!"integer overflow at option " ++ (o.usage ++ c!" ")) := (adds_cat (by decide)).bind (adds_usage o (by decide))
  have h2 := h1.bind (adds_catf 18 (s := c!"(" ++ v ++ c!" is too large)\n") ((NoNul.append (by decide) hv).append (by decide)))
  have := adds_progname.bind h2
  intro d t h hl
  obtain ⟨d', g1, g2⟩ := this d t h hl
  refine ⟨d', ?_, g2⟩
  rw [← g1]
  simp only [intError, Option.bind_eq_bind, Option.bind_assoc]

theorem adds_row {m : Mistake} (hc : NoNul (quoted m)) (hs : Sensible m) : Adds (printError (toRec m)) (lineOf m) := by
  cases m with
  | unexpected w => exact adds_end 3 hc (by decide)
  | unknown w => exact adds_end 4 hc (by decide)
  | noValue w => exact adds_end 5 hc (by decide)
  | letter c =>
    refine adds_end c.toNat (w := []) (by decide) ?_
    rw [Char.ofNat_toNat]
    rintro rfl
    exact hc (by simp [quoted])
  | tooOften o v =>
    intro d t h hl
    rw [printError_option (r := toRec (.tooOften o v)) rfl]
    simp only [lineOf, Mistake.text, toRec] at hl ⊢
    cases ht : o.takes with
    | nothing =>
      simp only [ht, if_true] at hl ⊢
      exact adds_lit d t h hl
    | int =>
      simp only [ht, reduceCtorEq, if_false] at hl ⊢
      exact adds_int_max hc d t h hl
    | text =>
      simp only [ht, reduceCtorEq, if_false] at hl ⊢
      exact adds_str_max hc d t h hl
  | notInteger o v =>
    intro d t h hl
    rw [printError_option (r := toRec (.notInteger o v)) rfl]
    have ht : o.takes = .int := hs
    simp only [ht]
    exact adds_badint hc d t h hl
  | tooLarge o v =>
    intro d t h hl
    rw [printError_option (r := toRec (.tooLarge o v)) rfl]
    have ht : o.takes = .int := hs
    simp only [ht]
    exact adds_overflow hc d t h hl
  | absent o =>
    intro d t h hl
    rw [printError_option (r := toRec (.absent o)) rfl]
    cases ht : o.takes with
    | nothing => exact absurd ht hs
    | int => exact adds_int_min d t h hl
    | text => exact adds_str_min d t h hl

/-- The row for more than ten errors. -/
def limitRec : ErrRec := ⟨.elimit, none, none⟩

theorem adds_limit : Adds (printError limitRec) (reportLine c!"too many errors to display") :=
  adds_end 1 (w := []) (by decide) (by decide)

theorem lineOf_length (m : Mistake) : (lineOf m).length ≤ (quoted m).length + 400 := by
  cases m with
  | letter c =>
    simp only [lineOf, reportLine, quoted]
    unfold endText
    split <;> simp
  | _ =>
    simp only [lineOf, reportLine, List.length_append, List.length_cons, List.length_nil]
    refine Nat.le_trans (Nat.add_le_add_right (Nat.add_le_add_left (text_length _) _) _) ?_
    omega

theorem adds_rows {rs : List ErrRec} {ls : List CStr} (h : List.Forall₂ (fun r l => Adds (printError r) l) rs ls) :
    Adds (printErrors rs) ls.flatten := by
  induction h with
  | nil => intro d t h _; exact ⟨d, rfl, by simpa using h⟩
  | cons h _ ih => exact h.bind ih

end Judger.Report
