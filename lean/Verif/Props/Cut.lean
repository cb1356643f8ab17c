import Verif.Props.Forged

/-!
# C112: a result of which only the beginning arrives is not taken for another
-/

set_option autoImplicit false

namespace Judger

open Judger.Spec

namespace Spec.JsonText

variable {lax : Bool}

/-- A text without closing brackets closes nothing. -/
theorem lexes_opens {s : CStr} {ts : List Tok} (h : Lexes lax s ts) (h1 : '}' ∉ s) (h2 : ']' ∉ s) : 0 ≤ bal ts := by
  induction h with
  | nil => simp [bal]
  | blank c r ts _ _ ih => exact ih (fun hm => h1 (List.mem_cons_of_mem _ hm)) (fun hm => h2 (List.mem_cons_of_mem _ hm))
  | punct c t r ts h _ ih =>
    have := ih (fun hm => h1 (List.mem_cons_of_mem _ hm)) (fun hm => h2 (List.mem_cons_of_mem _ hm))
    have : 0 ≤ depth t := by
      unfold punct at h
      split at h <;> first | (cases h <;> decide) | (exact absurd (List.mem_cons_self ..) h1) | (exact absurd (List.mem_cons_self ..) h2)
    simp only [bal]
    omega
  | str body r ts _ _ ih =>
    have := ih (fun hm => h1 (by simp [hm])) (fun hm => h2 (by simp [hm]))
    simpa [bal, depth] using this
  | num t r ts _ _ _ ih =>
    have := ih (fun hm => h1 (by simp [hm])) (fun hm => h2 (by simp [hm]))
    simpa [bal, depth] using this
  | word t r ts _ _ ih =>
    have := ih (fun hm => h1 (by simp [hm])) (fun hm => h2 (by simp [hm]))
    simpa [bal, depth] using this

/-- A text with an opening brace at the end of a line and no closing bracket after it denotes nothing. -/
theorem denotes_open {s t : CStr} {v : Value} (h1 : '}' ∉ t) (h2 : ']' ∉ t) : ¬Denotes lax (s ++ '{' :: '\n' :: t) v := by
  rintro ⟨ts, h3, h4⟩
  obtain ⟨a, b, rfl, h5, h6⟩ := lexes_brace h3
  have h7 := closed_value h4
  have h8 := h7.2 a _ rfl
  have h9 := h7.1
  have := lexes_opens h6 h1 h2
  rw [bal_append] at h9
  simp only [bal, depth] at h9
  omega

/-- Nor if it ends with the brace. -/
theorem denotes_brace {s : CStr} {v : Value} : ¬Denotes lax (s ++ ['{']) v := by
  rintro ⟨ts, h3, h4⟩
  refine denotes_open (lax := lax) (s := s) (t := []) (v := v) (by simp) (by simp) ⟨ts, ?_, h4⟩
  have := lexes_append h3 (.blank '\n' [] [] (by decide) .nil) (by intro c hc; cases hc; decide)
  simpa using this

end Spec.JsonText

/-- In the result's text, brackets are closed only at its end. -/
theorem resultText_ends (r : Result) : ∃ t, resultText r = '{' :: '\n' :: (t ++ ['}']) ∧ '}' ∉ t ∧ ']' ∉ t ∧ '{' ∉ t ∧ '\x00' ∉ t := by
  have hn : ∀ n : Int, ∀ c, c ∈ showInt n → c ∉ c!"{}]\x00" := by
    intro n c h hc
    have hd : c = '-' ∨ (Json.digit c).isSome = true := by
      unfold showInt at h
      split at h
      · rcases List.mem_cons.1 h with h | h
        · exact .inl h
        · exact .inr (showNat_digits _ c h)
      · exact .inr (showNat_digits _ c h)
    revert hd
    simp only [List.mem_cons, List.not_mem_nil, or_false] at hc
    rcases hc with rfl | rfl | rfl | rfl <;> decide
  refine ⟨c!"    \"cpu_time\": " ++ showInt r.cpuTime ++ c!",\n    \"real_time\": " ++ showInt r.realTime ++ c!",\n    \"memory\": " ++ showInt r.memory ++
    c!",\n    \"signal\": " ++ showInt r.signal ++ c!",\n    \"exit_code\": " ++ showInt r.exitCode ++ c!",\n    \"error\": " ++ showInt r.error ++
    c!",\n    \"result\": " ++ showInt r.result ++ c!"\n", by simp [resultText], ?_, ?_, ?_, ?_⟩
  · simp [show ∀ n, '}' ∉ showInt n from fun n h => hn n _ h (by decide)]
  · simp [show ∀ n, ']' ∉ showInt n from fun n h => hn n _ h (by decide)]
  · simp [show ∀ n, '{' ∉ showInt n from fun n h => hn n _ h (by decide)]
  · simp [show ∀ n, '\x00' ∉ showInt n from fun n h => hn n _ h (by decide)]

/-- Whatever stands before it, a non-empty beginning of the result's text is the end of a JSON text only if it is the whole. -/
theorem cut_whole {lax : Bool} {r : Result} {s p : CStr} {v : JsonText.Value} (hp : p <+: resultText r) (hne : p ≠ [])
    (h : JsonText.Denotes lax (s ++ p) v) : p = resultText r := by
  obtain ⟨t, ht, h1, h2, _, _⟩ := resultText_ends r
  rw [ht] at hp
  refine Classical.byContradiction fun hn => ?_
  rw [ht] at hn
  rcases p with _ | ⟨a, _ | ⟨b, p⟩⟩
  · exact hne rfl
  · obtain ⟨_, hp⟩ := hp
    cases hp
    exact JsonText.denotes_brace h
  · obtain ⟨q, hp⟩ := hp
    simp only [List.cons_append, List.cons.injEq] at hp
    obtain ⟨rfl, rfl, hp⟩ := hp
    have : p <+: t := by
      rcases List.append_eq_append_iff.1 hp with ⟨x, h3, h4⟩ | ⟨x, h3, h4⟩
      · exact ⟨x, h3.symm⟩
      · rcases x with _ | ⟨y, x⟩
        · exact ⟨[], by simpa using h3⟩
        · simp only [List.cons_append, List.cons.injEq, List.nil_eq, List.append_eq_nil_iff] at h4
          obtain ⟨rfl, rfl, _⟩ := h4
          exact absurd (by rw [h3]) hn
    exact JsonText.denotes_open (fun hm => h1 (this.subset hm)) (fun hm => h2 (this.subset hm)) h

/-! ## C112 -/

/-- C112, the full claim.  `r` is the result the judger prints or would have printed, `n` the number of its characters that arrive: fewer than all if
the judger is killed or crashes before it ends, or if its standard output takes no more.  Neither binding looks at how the judger ended, and `main`
does not look whether what it prints arrives.  `early` is what the judged program wrote to the judger's standard output. -/
def C112_full : Prop :=
  ∀ (r : Result) (n : Nat) (early err printed : CStr) (v : JsonText.Value),
    (Py.finish (early ++ (resultText r).take n) err = .value v → v = .ofInts (sevenMembers r)) ∧
    (Node.finish (early ++ (resultText r).take n) = .returns printed v → ∀ m ∈ sevenMembers r, v.get m.1 = some (.num (showInt m.2)))

/-- C112, Python, the part that holds: if anything of the result arrives, or if nothing but blanks came before it.  A value is returned only if the
whole result arrived.  Missing: a program whose standard output is the judger's, and nothing of the result (`C112_false`). -/
theorem C112_python_partial (r : Result) (n : Nat) (early err : CStr) (v : JsonText.Value) (hn : 0 < n ∨ ∀ c ∈ early, c ∈ c!" \t\n\r")
    (h : Py.finish (early ++ (resultText r).take n) err = .value v) :
    (resultText r).take n = resultText r ∧ v = .ofInts (sevenMembers r) := by
  have hd := (finish_value.1 h).2.2
  have hpos : 0 < n := by
    rcases hn with hn | hb
    · exact hn
    · refine Nat.pos_of_ne_zero fun h0 => ?_
      subst h0
      obtain ⟨ts, h1, h2⟩ := hd
      rw [List.take_zero] at h1
      have := JsonText.lexes_unique h1 (JsonText.blanks_lex hb .nil)
      exact JsonText.value_ne_nil h2 this
  have hw := cut_whole (List.take_prefix n _) (by
    obtain ⟨t, ht, _⟩ := resultText_split r
    rw [ht]
    cases n with
    | zero => exact absurd hpos (by decide)
    | succ n => simp) hd
  rw [hw] at h
  exact ⟨hw, ((C102_early r early err v).1 h).2.2⟩

/-- C112, Node, the part that holds: if anything of the result arrives, and the program wrote no NUL byte.  Missing: nothing of the result
(`C112_false`), and a NUL byte, which hides the rest of its line (`C112_witness_nul`). -/
theorem C112_node_partial (r : Result) (n : Nat) (early printed : CStr) (v : JsonText.Value) (hn : 0 < n) (h0 : '\x00' ∉ early)
    (h : Node.finish (early ++ (resultText r).take n) = .returns printed v) :
    (resultText r).take n = resultText r ∧ ∀ m ∈ sevenMembers r, v.get m.1 = some (.num (showInt m.2)) := by
  have hw : (resultText r).take n = resultText r := by
    cases hh : Node.handed (early ++ (resultText r).take n) with
    | none => rw [finish_none hh] at h; cases h
    | some x =>
      obtain ⟨p, text⟩ := x
      rw [Node.finish, hh, Node.parsed] at h
      cases hp : JsonText.parse false text with
      | none => rw [hp] at h; cases h
      | some w =>
        have hd := JsonText.parse_some hp
        suffices ∃ s, text = s ++ (resultText r).take n by
          obtain ⟨s, rfl⟩ := this
          refine cut_whole (List.take_prefix n _) ?_ hd
          obtain ⟨t, ht, _⟩ := resultText_split r
          rw [ht]
          cases n with
          | zero => exact absurd hn (by decide)
          | succ n => simp
        obtain ⟨t, ht, hnt⟩ := resultText_split r
        obtain ⟨k, rfl⟩ : ∃ k, n = k + 1 := ⟨n - 1, by omega⟩
        have hnul : '\x00' ∉ early ++ (resultText r).take (k + 1) := by
          intro hm
          rcases List.mem_append.1 hm with hm | hm
          · exact h0 hm
          · exact resultText_noNul r (List.mem_of_mem_take hm)
        rw [ht, List.take_succ_cons] at hh hnul ⊢
        have hnt' : '{' ∉ t.take k := fun hm => hnt (List.mem_of_mem_take hm)
        generalize t.take k = u at *
        unfold Node.handed at hh
        simp only [readResult_noNul (Nat.le_refl _) hnul] at hh
        split at hh
        · cases hh
        · split at hh
          · cases hh
          · rename_i hneg
            have hf := lastBrace_found hneg
            generalize Node.lastBrace (early ++ '{' :: u) (castInt ↑(early ++ '{' :: u).length).toNat = i at hh hf
            simp only [Option.some.injEq, Prod.mk.injEq] at hh
            have hle : i.toNat ≤ early.length := by
              refine Classical.byContradiction fun hge => ?_
              rw [List.getElem?_append_right (by omega), show i.toNat - early.length = (i.toNat - early.length - 1) + 1 by omega,
                List.getElem?_cons_succ] at hf
              exact hnt' (List.mem_of_getElem? hf)
            exact ⟨early.drop i.toNat, by rw [← hh.2, List.drop_append_of_le_length hle]⟩
  rw [hw] at h
  exact ⟨hw, C100_early r early printed v h⟩

/-- The program writes an accepted result, and nothing of the real one arrives: both bindings return what the program wrote. -/
theorem C112_witness : ∃ early v, Py.finish (early ++ (resultText forgerResult).take 0) [] = .value v ∧
    Node.finish (early ++ (resultText forgerResult).take 0) = .returns [] v ∧ forgerResult.result = RUNTIME_ERROR ∧ SaysAccepted v := by
  refine ⟨resultText (noResult 0), .ofInts (sevenMembers (noResult 0)), ?_, ?_, rfl, (last_accepted (List.suffix_refl _)).2 ⟨rfl, rfl⟩⟩
  · rw [List.take_zero, List.append_nil]
    exact (C102_early (noResult 0) [] [] _).2 ⟨rfl, by simp, rfl⟩
  · rw [List.take_zero, List.append_nil]
    have := C62_result_found_partial [] (noResult 0) (by simp) (by rw [forged_text]; decide +kernel)
    rwa [List.nil_append] at this

theorem C112_false : ¬C112_full := by
  intro h
  obtain ⟨early, v, h1, _, _, h2⟩ := C112_witness
  have := (h forgerResult 0 early [] [] v).1 h1
  rw [this] at h2
  exact absurd ((last_accepted (List.suffix_refl _)).1 h2) (by decide)

/-- The program ends what it writes with a NUL byte, and the first line of the real result arrives. -/
theorem C112_witness_nul : ∃ early v, Node.finish (early ++ (resultText forgerResult).take 2) = .returns [] v ∧
    forgerResult.result = RUNTIME_ERROR ∧ SaysAccepted v := by
  refine ⟨resultText (noResult 0) ++ ['\x00'], .ofInts (sevenMembers (noResult 0)), ?_, rfl, (last_accepted (List.suffix_refl _)).2 ⟨rfl, rfl⟩⟩
  have h1 : Node.handed ((resultText (noResult 0) ++ ['\x00']) ++ (resultText forgerResult).take 2) = some ([], resultText (noResult 0)) := by
    rw [forger_text, forged_text]; decide +kernel
  rw [Node.finish, h1, Node.parsed, C58_parse]

/-- A result cut off in the middle: Python raises. -/
example : ∀ v, Py.finish ((resultText forgerResult).take 40) [] ≠ .value v := by
  intro v h
  have := (C112_python_partial forgerResult 40 [] [] v (.inl (by decide)) h).1
  rw [forger_text] at this
  exact absurd this (by decide)

/-- And all of it, after what the program wrote. -/
example : (∃ v, Py.finish (c!"\n" ++ (resultText forgerResult).take 200) [] = .value v) ∧
    ∃ printed v, Node.finish (c!"hello\n" ++ (resultText forgerResult).take 200) = .returns printed v := by
  have h : (resultText forgerResult).take 200 = resultText forgerResult := by rw [forger_text]; decide
  rw [h]
  exact ⟨⟨_, (C102_early _ _ _ _).2 ⟨rfl, by decide, rfl⟩⟩, _, _, C62_result_found_partial _ _ (by decide) (by rw [forger_text]; decide +kernel)⟩

end Judger
