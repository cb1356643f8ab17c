import Verif.Lemmas.ReportRows

/-! # The help text -/

set_option autoImplicit false

namespace Judger.Report

open Judger.Spec Judger.Spec.Cli

theorem catOption_eq {name : CStr} (h2 : ',' ∉ name) (h4 : name ≠ []) (v : Option CStr) (u : Cursor) :
    catOption (some name) v u = catOptionv (some name) v c!", " u := by
  cases name with
  | nil => exact absurd rfl h4
  | cons c r =>
    have e : catLongNames c!", " ((c :: r).length + 1) (c :: r) u = (argCat c!"--" u).bind fun u =>
        strncat (c :: r) (if (c :: r).length < u.ndest then (c :: r).length else u.ndest) u := by
      rw [catLongNames]
      · rw [toComma_all h2]
        simp [List.drop_length]
      · intro h; cases h
    unfold catOption catOptionv
    simp only [Option.bind_eq_bind, e, toComma_all h2, Option.bind_assoc]
    cases v <;> simp

theorem cat_usage (o : Opt) : ∃ u, catOptionv (some o.name) (placeholder o) c!", " syntaxBuffer = some u ∧ stringAt u.block = some o.usage := by
  obtain ⟨u, g1, g2⟩ := cat_optionv (name_ok o).1 (name_ok o).2.1 (name_ok o).2.2.1 (name_ok o).2.2.2 (placeholder o) (placeholder_ok o) c!", "
  obtain ⟨r, hr⟩ := g2.block
  exact ⟨u, g1, by rw [hr, stringAt_text g2.clean, usage_eq]⟩

theorem usage_clean (o : Opt) : NoNul o.usage := by cases o <;> decide

theorem adds_optional {s close : CStr} (h1 : NoNul s) (h2 : NoNul close) : Adds (optional s close) (c!" [" ++ s ++ close) :=
  ((adds_cat (s := c!" [") (by decide)).bind ((adds_cat h1).bind (adds_cat h2))).congr (by simp)

theorem adds_none : Adds (fun d => some d) [] := fun d t h _ => ⟨d, rfl, by simpa using h⟩

theorem adds_syntax (o : Opt) : Adds (syntaxEntry (Opt.entry o) (placeholder o)) o.synopsis := by
  obtain ⟨u, g1, g2⟩ := cat_usage o
  have hl : o.usage.length > 0 := by cases o <;> decide
  have e : syntaxEntry (Opt.entry o) (placeholder o) =
      fun d => (mandatory o.usage (Opt.entry o).mincount d).bind (optionals o.usage ((Opt.entry o).maxcount - (Opt.entry o).mincount)) := by
    funext d
    unfold syntaxEntry
    have : (Opt.entry o).longopts = some o.name := rfl
    simp only [this, catOption_eq (name_ok o).2.1 (name_ok o).2.2.2, g1, Option.bind_eq_bind, Option.bind_some, g2, hl, if_true]
  rw [e]
  have hm : (Opt.entry o).maxcount = o.atMost := rfl
  by_cases ho : o = .exePath
  · subst ho
    have : (Opt.entry Opt.exePath).mincount = 1 := rfl
    rw [this, hm]
    exact (((adds_cat (s := [' ']) (by decide)).bind ((adds_cat (usage_clean _)).bind adds_none)).bind adds_none).congr (by simp [Opt.synopsis])
  · have h0 : (Opt.entry o).mincount = 0 := by cases o <;> first | rfl | exact absurd rfl ho
    rw [h0, hm]
    by_cases h1 : o.atMost = 1
    · rw [h1]
      exact (adds_none.bind (adds_optional (usage_clean o) (close := c!"]") (by decide))).congr (by simp [Opt.synopsis, ho, h1])
    · obtain ⟨n, hn⟩ : ∃ n, o.atMost = n + 3 := by
        cases o <;> first | exact ⟨252, rfl⟩ | exact absurd rfl h1
      rw [hn]
      exact (adds_none.bind (adds_optional (usage_clean o) (close := c!"]...") (by decide))).congr (by simp [Opt.synopsis, ho, hn])

theorem adds_glossary (o : Opt) : Adds (glossaryEntry (Opt.entry o) (placeholder o, o.about)) o.helpLine := by
  obtain ⟨u, g1, g2⟩ := cat_usage o
  have e : glossaryEntry (Opt.entry o) (placeholder o, o.about) = dstrCatf 11 o.helpLine := by
    funext d
    unfold glossaryEntry
    have : (Opt.entry o).longopts = some o.name := rfl
    simp only [this, g1, Option.bind_eq_bind, Option.bind_some, g2, padRight, Opt.helpLine, List.append_assoc]
  rw [e]
  have hp : ∀ n, NoNul (List.replicate n ' ') := by
    intro n h
    exact absurd (List.eq_of_mem_replicate h) (by decide)
  exact adds_catf 11 (((((NoNul.append (s := c!"  ") (by decide) (usage_clean o)).append (hp _)).append (t := c!" ") (by decide)).append
    (about_ok o).1).append (t := c!"\n") (by decide))

theorem table_eq : mainTable.zip mainTexts = helpOrder.map fun o => (Opt.entry o, (placeholder o, o.about)) := by rfl

theorem adds_all_syntax (os : List Opt) :
    Adds (printSyntax (os.map fun o => (Opt.entry o, (placeholder o, o.about)))) (os.flatMap Opt.synopsis) := by
  induction os with
  | nil => exact adds_none
  | cons o os ih =>
    rw [List.flatMap_cons, List.map_cons]
    have h := Adds.bind (adds_syntax o) ih
    have e : printSyntax ((Opt.entry o, (placeholder o, o.about)) :: os.map fun o => (Opt.entry o, (placeholder o, o.about))) =
        fun d => (syntaxEntry (Opt.entry o) (placeholder o) d).bind (printSyntax (os.map fun o => (Opt.entry o, (placeholder o, o.about)))) := by
      funext d
      rw [printSyntax]
      rfl
    rw [e]
    exact h

theorem adds_all_glossary (os : List Opt) :
    Adds (printGlossary (os.map fun o => (Opt.entry o, (placeholder o, o.about)))) (os.flatMap Opt.helpLine) := by
  induction os with
  | nil => exact adds_none
  | cons o os ih =>
    rw [List.flatMap_cons, List.map_cons]
    have h := Adds.bind (adds_glossary o) ih
    have e : printGlossary ((Opt.entry o, (placeholder o, o.about)) :: os.map fun o => (Opt.entry o, (placeholder o, o.about))) =
        fun d => (glossaryEntry (Opt.entry o) (placeholder o, o.about) d).bind
          (printGlossary (os.map fun o => (Opt.entry o, (placeholder o, o.about)))) := by
      funext d
      rw [printGlossary]
      rfl
    rw [e]
    exact h

theorem synopsis_length (os : List Opt) : (os.flatMap Opt.synopsis).length ≤ os.length * 100 := by
  induction os with
  | nil => simp
  | cons o os ih =>
    have h1 := usage_length o
    have h2 : o.synopsis.length ≤ 100 := by
      unfold Opt.synopsis
      split
      · simp; omega
      · split <;> simp <;> omega
    rw [List.flatMap_cons, List.length_append, List.length_cons]
    omega

theorem helpLine_length (os : List Opt) : (os.flatMap Opt.helpLine).length ≤ os.length * 300 := by
  induction os with
  | nil => simp
  | cons o os ih =>
    have h1 := usage_length o
    have h2 := (about_ok o).2
    have h3 : o.helpLine.length ≤ 300 := by
      unfold Opt.helpLine
      simp
      omega
    rw [List.flatMap_cons, List.length_append, List.length_cons]
    omega

theorem helpText_eq : helpText = some help := by
  have l1 := synopsis_length helpOrder
  have l2 := helpLine_length helpOrder
  have l3 : helpOrder.length = 19 := rfl
  rw [l3] at l1 l2
  unfold helpText help
  rw [table_eq]
  generalize helpOrder = os at l1 l2
  obtain ⟨d1, e1, r1⟩ := adds_catf 2 (s := []) (by decide) dstrCreate [] rep_create (by simp)
  rw [List.nil_append] at r1
  obtain ⟨d2, e2, r2⟩ := adds_all_syntax os d1 [] r1 (by rw [List.length_nil]; omega)
  rw [List.nil_append] at r2
  obtain ⟨d3, e3, r3⟩ := adds_cat (s := c!"\n\n") (by decide) d2 _ r2 (by rw [show (c!"\n\n").length = 2 from rfl]; omega)
  obtain ⟨g, k1, k2⟩ := adds_all_glossary os dstrCreate [] rep_create (by rw [List.length_nil]; omega)
  rw [List.nil_append] at k2
  simp only [e1, e2, e3, k1, Option.bind_eq_bind, Option.bind_some, r3.text, k2.text]
  simp [progname]

end Judger.Report
