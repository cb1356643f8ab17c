import Verif.Props.Askable
import Verif.Props.Node

/-! # C132 in Node: which configurations a call can ask for -/

set_option autoImplicit false

namespace Judger

open Judger.Spec Judger.Spec.Cli Judger.Spec.Shell Judger.Node

/-! ## No more than a command line -/

/-- Words are made of the characters of the line. -/
theorem lex_chars (s : CStr) : ∀ (m : Reading) (cur : Option CStr) (ws : List CStr) (cs : List (List CStr)), lex m cur ws s = some cs →
    ∀ ws' ∈ cs, ∀ w ∈ ws', ∀ x ∈ w, x ∈ s ∨ x ∈ cur.getD [] ∨ ∃ v ∈ ws, x ∈ v := by
  induction s with
  | nil =>
    intro m cur ws cs h ws' hws w hw x hx
    cases m with
    | bare =>
      simp only [lex, Option.some.injEq] at h
      subst h
      obtain rfl := List.mem_singleton.1 hws
      rcases List.mem_append.1 hw with hw | hw
      · exact .inr (.inr ⟨w, hw, hx⟩)
      · cases cur with
        | none => cases hw
        | some c => obtain rfl := List.mem_singleton.1 hw; exact .inr (.inl hx)
    | single => cases h
    | escaped => cases h
  | cons c r ih =>
    intro m cur ws cs h ws' hws w hw x hx
    -- a character goes to the word
    have add : ∀ {m'}, lex m' (some (cur.getD [] ++ [c])) ws r = some cs → x ∈ c :: r ∨ x ∈ cur.getD [] ∨ ∃ v ∈ ws, x ∈ v := by
      intro m' h
      rcases ih _ _ _ _ h ws' hws w hw x hx with h1 | h1 | h1
      · exact .inl (List.mem_cons_of_mem _ h1)
      · rcases List.mem_append.1 h1 with h1 | h1
        · exact .inr (.inl h1)
        · obtain rfl := List.mem_singleton.1 h1; exact .inl List.mem_cons_self
      · exact .inr (.inr h1)
    -- or only marks a place
    have same : ∀ {m'}, lex m' (some (cur.getD [])) ws r = some cs → x ∈ c :: r ∨ x ∈ cur.getD [] ∨ ∃ v ∈ ws, x ∈ v := by
      intro m' h
      rcases ih _ _ _ _ h ws' hws w hw x hx with h1 | h1 | h1
      · exact .inl (List.mem_cons_of_mem _ h1)
      · exact .inr (.inl h1)
      · exact .inr (.inr h1)
    have toList : ∀ v ∈ ws ++ cur.toList, x ∈ v → x ∈ cur.getD [] ∨ ∃ v ∈ ws, x ∈ v := by
      intro v hv hxv
      rcases List.mem_append.1 hv with hv | hv
      · exact .inr ⟨v, hv, hxv⟩
      · cases cur with
        | none => cases hv
        | some c => obtain rfl := List.mem_singleton.1 hv; exact .inl hxv
    cases m with
    | single =>
      rw [lex] at h
      split at h
      · rcases ih _ _ _ _ h ws' hws w hw x hx with h1 | h1 | h1
        · exact .inl (List.mem_cons_of_mem _ h1)
        · exact .inr (.inl h1)
        · exact .inr (.inr h1)
      · exact add h
    | escaped =>
      rw [lex] at h
      split at h
      · cases h
      · exact add h
    | bare =>
      rw [lex] at h
      split at h
      · exact add h
      · split at h
        · rcases ih _ _ _ _ h ws' hws w hw x hx with h1 | h1 | ⟨v, h1, h2⟩
          · exact .inl (List.mem_cons_of_mem _ h1)
          · cases h1
          · exact .inr (toList v h1 h2)
        · split at h
          · obtain ⟨cs', h1, rfl⟩ := Option.map_eq_some_iff.1 h
            rcases List.mem_cons.1 hws with rfl | hws
            · exact .inr (toList w hw hx)
            · rcases ih _ _ _ _ h1 ws' hws w hw x hx with h1 | h1 | ⟨v, h1, h2⟩
              · exact .inl (List.mem_cons_of_mem _ h1)
              · cases h1
              · cases h1
          · split at h
            · exact same h
            · split at h
              · exact same h
              · cases h

theorem each_noNul {α : Type} {f : α → NRes CStr} : ∀ (l : List α) (t : CStr), (∀ x ∈ l, ∀ t, f x = .ok t → '\x00' ∉ t) → each f l = .ok t → '\x00' ∉ t := by
  intro l
  induction l with
  | nil => intro t _ h; cases h; simp
  | cons x xs ih =>
    intro t hf h
    rw [each] at h
    split at h
    · rename_i a ha
      split at h
      · rename_i b hb
        cases h
        rw [List.mem_append]
        exact fun h => h.elim (hf x List.mem_cons_self a ha) (ih b (fun y hy => hf y (List.mem_cons_of_mem _ hy)) hb)
      · cases h
      · cases h
    · cases h
    · cases h

theorem takeWhile_noNul' (s : CStr) : '\x00' ∉ s.takeWhile (· ≠ '\x00') := by
  induction s with
  | nil => simp
  | cons c s ih =>
    rw [List.takeWhile_cons]
    split
    · rename_i hc
      rw [List.mem_cons]
      rintro (h | h)
      · subst h; simp at hc
      · exact ih h
    · simp

theorem nodeWord_noNul {k t : CStr} (hk : '\x00' ∉ k) (ht : '\x00' ∉ t) : '\x00' ∉ word k t := by
  simp [word, hk, ht]

theorem toNumber_noNul {get : CStr → JsVal} {k t : CStr} (hk : '\x00' ∉ k) (h : toNumber get k = .ok t) : '\x00' ∉ t := by
  unfold toNumber at h
  split at h
  · cases h; simp
  · cases h; simp
  · cases h; exact nodeWord_noNul hk (fun h0 => by have := safe_showInt _ _ h0; revert this; decide)
  · cases h

theorem toCStr_noNul {v : JsVal} {k t : CStr} (hk : '\x00' ∉ k) (h : toCStr v k = .ok t) : '\x00' ∉ t := by
  unfold toCStr at h
  split at h
  · cases h; simp
  · cases h; simp
  · split at h
    · rename_i ht
      cases h
      refine nodeWord_noNul hk ?_
      unfold Node.copyText at ht
      dsimp only at ht
      split at ht
      · cases ht
        intro h0
        exact takeWhile_noNul' _ h0
      · cases ht
    · cases h
    · cases h
  · cases h

theorem command_noNul {get : CStr → JsVal} {cmd : CStr} (h : command get = .ok cmd) : '\x00' ∉ cmd := by
  unfold command at h
  split at h
  · cases h
  · cases h
  · rename_i a ha
    split at h
    · cases h
    · cases h
    · rename_i b hb
      split at h
      · cases h
      · cases h
      · rename_i c hc
        split at h
        · cases h
        · cases h
        · rename_i d hd
          cases h
          have n1 : ∀ k ∈ intVars, '\x00' ∉ k := by decide
          have n2 : ∀ k ∈ strVars, '\x00' ∉ k := by decide
          have h1 := each_noNul _ _ (fun k hk t => toNumber_noNul (n1 k hk)) ha
          have h2 := each_noNul _ _ (fun k hk t => toCStr_noNul (n2 k hk)) hb
          have h3 : '\x00' ∉ c := by
            unfold argsPart at hc
            split at hc
            · cases hc; simp
            · cases hc; simp
            · exact each_noNul _ _ (fun _ _ t => toCStr_noNul (by decide)) hc
            · cases hc
          have h4 : '\x00' ∉ d := by
            unfold envPart at hd
            split at hd
            · cases hd; simp
            · split at hd
              · split at hd
                · exact each_noNul _ _ (fun _ _ t => toCStr_noNul (by decide)) hd
                · cases hd
              · cases hd
          have h0 : '\x00' ∉ judgerPath := by decide
          simp [h0, h1, h2, h3, h4]

/-- C132: a call of the Node binding asks for no more than a command line can, whatever the shell makes of it (as far as `Shell.commands` describes it). -/
theorem C132_node_only (posix : Bool) (junk : Cells) (get : CStr → JsVal) (cmd a : CStr) (ws : List CStr) (cs : List (List CStr)) (c : Config)
    (hc : command get = .ok cmd) (hs : commands cmd = some cs) (hw : a :: ws ∈ cs) (h : MainDoes posix junk (a :: ws) (.runs c)) : Askable c := by
  refine runs_askable (fun w hm h0 => ?_) h
  unfold commands at hs
  split at hs
  · cases hs
  · rename_i cs' hl
    split at hs
    · cases hs
      rcases lex_chars cmd _ _ _ _ hl _ hw w (List.mem_cons_of_mem _ hm) _ h0 with h1 | h1 | ⟨v, h1, _⟩
      · exact command_noNul hc h1
      · cases h1
      · cases h1
    · cases hs

/-! ## And no less, for short texts -/

/-- The request for a configuration. -/
def askNode (c : Config) (as : List CStr) : Spec.Node.Request where
  int := fun o => match o with
    | .maxCpuTime => some c.maxCpuTime
    | .maxRealTime => some c.maxRealTime
    | .maxMemory => some c.maxMemory
    | .memoryLimitCheckOnly => some c.memoryLimitCheckOnly
    | .maxStack => some c.maxStack
    | .maxProcessNumber => some c.maxProcessNumber
    | .maxOutputSize => some c.maxOutputSize
    | .uid => some (asInt c.uid)
    | .gid => some (asInt c.gid)
    | _ => none
  text := fun o => match o with
    | .exePath => some c.exePath
    | .inputPath => c.inputPath
    | .outputPath => c.outputPath
    | .errorPath => c.errorPath
    | .logPath => some c.logPath
    | .seccompRuleName => c.seccompRuleName
    | _ => none
  args := some as
  env := some c.env

/-- All texts of a configuration. -/
def configTexts (c : Config) : List CStr :=
  c.args ++ c.env ++ [c.exePath, c.logPath] ++ c.inputPath.toList ++ c.outputPath.toList ++ c.errorPath.toList ++ c.seccompRuleName.toList

theorem askNode_text {c : Config} {as : List CStr} (hargs : c.args = c.exePath :: as) {s : CStr} (h : (askNode c as).HasText s) : s ∈ configTexts c := by
  rcases h with ⟨o, ho, h⟩ | h | h
  · cases o <;> simp [askNode] at h <;> simp [configTexts, h]
  · have : s ∈ as := h
    simp [configTexts, hargs, this]
  · have : s ∈ c.env := h
    simp [configTexts, this]

/-- C132, Node: with fewer than 255 arguments, and texts that are shorter than 255 bytes when quoted, every configuration that a command line can ask for can
be asked for.  Missing: longer texts, which overflow a buffer (`C63_overflow`), and 255 arguments. -/
theorem C132_node_partial (c : Config) (h : Askable c) (hn : c.args.length ≤ 255) (hq : ∀ s ∈ configTexts c, (quote s).length < 255) :
    ∃ get cmd argv, command get = .ok cmd ∧ commands cmd = some [argv] ∧ ∀ (posix : Bool) (junk : Cells), MainDoes posix junk argv (.runs c) := by
  obtain ⟨as, hl, hp, hargs⟩ := h.args
  obtain ⟨ti, hi1, hi2⟩ := h.input
  obtain ⟨u, ho1, ho2⟩ := h.output
  obtain ⟨te, he1, he2⟩ := h.error
  have has : as.length < 255 := by rw [hargs] at hn; simp at hn; omega
  rw [if_neg (by omega), List.append_nil] at hargs
  have hflag : IsInt c.memoryLimitCheckOnly := by rcases h.flag with h | h <;> rw [h] <;> decide
  have all : ∀ s, (askNode c as).HasText s → Sendable s := by
    rintro s (⟨o, ho, hs⟩ | hs | hs)
    · cases o <;> simp [askNode] at hs
      · subst hs; exact h.exe
      · rw [hi1] at hs; cases hs; exact hi2
      · rw [ho1] at hs; cases hs; exact ho2
      · rw [he1] at hs; cases hs; exact he2
      · subst hs; exact h.log
      · exact h.rules s hs
    · exact hp s hs
    · exact h.env.2 s hs
  have hok : (askNode c as).Ok := by
    refine ⟨⟨_, rfl⟩, ?_, fun s hs => (all s hs).1, fun s hs => (all s hs).2, hl, h.env.1⟩
    intro o n hn
    cases o <;> simp [askNode] at hn <;> subst hn
    · exact h.cpu
    · exact h.real
    · exact h.mem
    · exact hflag
    · exact h.stack
    · exact h.nproc
    · exact h.out
    · exact (asInt_int h.uid).1
    · exact (asInt_int h.gid).1
  have hw : (askNode c as).wanted = c := by
    have e2 : (if c.memoryLimitCheckOnly = 0 then (0 : Int) else 1) = c.memoryLimitCheckOnly := by rcases h.flag with h | h <;> rw [h] <;> rfl
    have e4 := (asInt_int h.uid).2
    have e5 := (asInt_int h.gid).2
    simp only [askNode, Spec.Node.Request.wanted, Option.getD_some, e2, e4, e5, hi1, ho1, he1, ← hargs]
    rw [← hi1, ← ho1, ← he1]
  obtain ⟨cmd, argv, h1, h2, h3⟩ := C63_quoted_partial (askNode c as) hok has (.inr (by simp [askNode])) (fun s hs => hq s (askNode_text hargs hs))
  exact ⟨_, cmd, argv, h1, h2, by rw [hw] at h3; exact h3⟩

/-- A path with a blank and a quote, and a uid of 4294967295, which Python cannot ask for. -/
example : ∃ get cmd argv, command get = .ok cmd ∧ commands cmd = some [argv] ∧
    ∀ (posix : Bool) (junk : Cells), MainDoes posix junk argv (.runs { roomy 5 with logPath := c!"it's a log", uid := 4294967295 }) := by
  have hr := (roomy_ok (n := 5) (by decide) (by decide)).2
  refine C132_node_partial _ ?_ (by decide) (by decide)
  exact { roomy_texts 5 with log := by simp [Sendable], cpu := hr.cpu, real := hr.real, mem := by decide, stack := by decide, nproc := hr.nproc, out := by decide, uid := by decide, gid := hr.gid }

end Judger
