import Verif.Props.Node
import Verif.Props.PythonCall

/-!
# C83, C84: a Node call from its argument to its end
-/

set_option autoImplicit false

namespace Judger

open Judger.Spec Judger.Spec.Cli Judger.Spec.Node Judger.Spec.Shell Judger.Node Judger.Report

/-- How a call ends: with an exception, or as `Node.Finished` says. -/
inductive NodeEnd where
  | throws (msg : CStr)
  | finished (f : Node.Finished)

/-- How a call with an object as argument can end.  `out` is what the judged program writes to the judger's stdout; nothing but the program and
the judger writes there.  Only command strings described in `Spec/Shell` that are one command are considered. -/
inductive NodeEnds (posix : Bool) (junk : Cells) (prior : Result) (e : RunEnv) (out : CStr) (get : CStr → JsVal) : NodeEnd → Prop
  | refused (msg : CStr) : command get = .throws msg → NodeEnds posix junk prior e out get (.throws msg)
  | overrun : command get = .ub → NodeEnds posix junk prior e out get (.finished .ub)
  | help (cmd : CStr) (argv : List CStr) (text : CStr) : command get = .ok cmd → commands cmd = some [argv] →
      MainDoes posix junk argv .help → helpText = some text → NodeEnds posix junk prior e out get (.finished (finish text))
  | version (cmd : CStr) (argv : List CStr) : command get = .ok cmd → commands cmd = some [argv] →
      MainDoes posix junk argv .version → NodeEnds posix junk prior e out get (.finished (finish versionText))
  /-- the judger does not like its command line -/
  | told (cmd : CStr) (argv : List CStr) (recs : List ErrRec) (text : CStr) : command get = .ok cmd → commands cmd = some [argv] →
      WordsOk argv → MainDoes posix junk argv (.errors recs) → reportText recs = some text →
      NodeEnds posix junk prior e out get (.finished (finish text))
  | ran (cmd : CStr) (argv : List CStr) (c : Config) (r : Result) (effs : List Eff) : command get = .ok cmd → commands cmd = some [argv] →
      MainDoes posix junk argv (.runs c) → run c prior e = .returned r effs →
      NodeEnds posix junk prior e out get (.finished (finish (out ++ resultText r)))

/-! ## Which characters a report is made of -/

section
variable (P : Char → Prop)

def MadeOf (s : CStr) : Prop := ∀ c ∈ s, P c

def FoundOf : Finding → Prop
  | .option _ v w => (∀ t, v = some t → MadeOf P t) ∧ MadeOf P w
  | .unknown w => MadeOf P w
  | .letter c => P c
  | .incomplete w => MadeOf P w

theorem reads_made {posix : Bool} {ws : List CStr} {fs : List Finding} {rest : List CStr} (h : Reads posix ws fs rest)
    (hp : ∀ w ∈ ws, MadeOf P w) : (∀ f ∈ fs, FoundOf P f) ∧ ∀ w ∈ rest, MadeOf P w := by
  induction h with
  | nil => exact ⟨(by simp), hp⟩
  | long s b ws ws' f fs rest hs hb hl _ ih =>
    have hw := hp _ (List.mem_cons_self ..)
    have hws : ∀ w ∈ ws, MadeOf P w := fun w h => hp w (List.mem_cons_of_mem _ h)
    have hws' : ∀ w ∈ ws', MadeOf P w := by
      cases hl with
      | spaced n v o _ hc ht => exact fun w h => hws w (List.mem_cons_of_mem _ h)
      | _ => exact hws
    refine ⟨?_, (ih hws').2⟩
    intro g hg
    simp only [List.mem_append, List.mem_map, List.mem_cons] at hg
    rcases hg with ⟨c, hc, rfl⟩ | rfl | hg
    · exact hw c (by simp [hc])
    · cases hl with
      | value n v o _ hc ht =>
        refine ⟨?_, hw⟩
        rintro _ ⟨⟩
        exact fun c hc => hw c (by simp [hc])
      | spaced n v o _ hc ht =>
        have hv := hws v (List.mem_cons_self ..)
        refine ⟨?_, hv⟩
        rintro _ ⟨⟩
        exact hv
      | flag n o _ hc ht => exact ⟨by simp, hw⟩
      | missing n o hc ht => exact hw
      | unknown _ _ h1 h2 => exact hw
    · exact (ih hws').1 g hg
  | letters s ws fs rest hs hd _ ih =>
    have hw := hp _ (List.mem_cons_self ..)
    obtain ⟨i1, i2⟩ := ih fun w h => hp w (List.mem_cons_of_mem _ h)
    refine ⟨?_, i2⟩
    intro g hg
    simp only [List.mem_append, List.mem_map] at hg
    rcases hg with ⟨c, hc, rfl⟩ | hg
    · exact hw c (by simp [hc])
    · exact i1 g hg
  | positional w ws fs rest _ hx _ ih =>
    obtain ⟨i1, i2⟩ := ih fun w h => hp w (List.mem_cons_of_mem _ h)
    refine ⟨i1, ?_⟩
    intro x hx
    simp only [List.mem_cons] at hx
    rcases hx with rfl | hx
    · exact hp _ (List.mem_cons_self ..)
    · exact i2 x hx
  | positionalEnd w ws _ _ => exact ⟨by simp, hp⟩
  | dashes ws => exact ⟨by simp, fun w h => hp w (List.mem_cons_of_mem _ h)⟩

theorem mistakes_made {seen : Opt → Nat} {fs : List Finding} {ms : List Mistake} (h : Mistakes seen fs ms) (hp : ∀ f ∈ fs, FoundOf P f) :
    ∀ m ∈ ms, MadeOf P (quoted m) := by
  induction h with
  | nil => simp
  | option seen o v w fs ms ok rest hj _ ih =>
    have hf := hp _ (List.mem_cons_self ..)
    have ih' := ih fun f hm => hp f (List.mem_cons_of_mem _ hm)
    intro m hm
    simp only [List.mem_append] at hm
    rcases hm with (hm | hm) | hm
    · split at hm
      · simp only [List.mem_singleton] at hm
        subst hm
        exact hf.2
      · cases hm
    · cases hj with
      | tooOften _ _ =>
        simp only [List.mem_singleton] at hm
        subst hm
        cases v with
        | none => exact fun c hc => nomatch hc
        | some t => exact hf.1 t rfl
      | accepted => cases hm
      | notInteger t _ ht _ =>
        simp only [List.mem_singleton] at hm
        subst hm
        exact hf.1 t rfl
      | tooLarge t _ _ ht _ _ =>
        simp only [List.mem_singleton] at hm
        subst hm
        exact hf.1 t rfl
    · exact ih' m hm
  | unknown seen w fs rest _ ih =>
    have hf := hp _ (List.mem_cons_self ..)
    have ih' := ih fun f hm => hp f (List.mem_cons_of_mem _ hm)
    intro m hm
    simp only [List.mem_cons] at hm
    rcases hm with rfl | hm
    · exact hf
    · exact ih' m hm
  | letter seen c fs rest _ ih =>
    have hf := hp _ (List.mem_cons_self ..)
    have ih' := ih fun f hm => hp f (List.mem_cons_of_mem _ hm)
    intro m hm
    simp only [List.mem_cons] at hm
    rcases hm with rfl | hm
    · intro c' hc'
      simp only [quoted, List.mem_singleton] at hc'
      rw [hc']; exact hf
    · exact ih' m hm
  | incomplete seen w fs rest _ ih =>
    have hf := hp _ (List.mem_cons_self ..)
    have ih' := ih fun f hm => hp f (List.mem_cons_of_mem _ hm)
    intro m hm
    simp only [List.mem_cons] at hm
    rcases hm with rfl | hm
    · exact hf
    · exact ih' m hm

theorem wrongs_made {posix : Bool} {ws : List CStr} {ms : List Mistake} (h : Wrongs posix ws ms) (hp : ∀ w ∈ ws, MadeOf P w) :
    ∀ m ∈ ms, MadeOf P (quoted m) := by
  obtain ⟨fs, rest, os, h1, h2, h3⟩ := h
  obtain ⟨p1, p2⟩ := reads_made P h1 hp
  rcases h3 with ⟨h3, rfl⟩ | ⟨h3, h4, rfl⟩ | ⟨h3, _, rfl⟩
  · intro m hm
    simp only [List.mem_append, List.mem_map] at hm
    rcases hm with hm | ⟨w, hw, rfl⟩
    · exact mistakes_made P h2 p1 m hm
    · exact p2 w hw
  · intro m hm
    simp only [List.mem_singleton] at hm
    subst hm
    exact fun c hc => nomatch hc
  · simp
end

theorem usage_noBrace (o : Opt) : '{' ∉ o.usage := by cases o <;> decide

theorem line_noBrace {m : Mistake} (h : '{' ∉ quoted m) : '{' ∉ lineOf m := by
  have hu := usage_noBrace
  cases m with
  | letter c =>
    simp only [quoted, List.mem_singleton] at h
    simp only [lineOf, reportLine, endText]
    split <;> simp [h, Char.ofNat_toNat]
  | tooOften o v =>
    simp only [quoted] at h
    have : '{' ∉ withValue o v := fun hc => by
      have := List.mem_of_mem_take hc
      have hn : '{' ∉ o.name := by cases o <;> decide
      simp [hn, h] at this
    simp only [lineOf, reportLine, Mistake.text]
    split <;> simp [hu, this]
  | _ => simp only [quoted] at h; simp [lineOf, reportLine, Mistake.text, hu, h]

/-- A report about words without '{' has none. -/
theorem report_noBrace {posix : Bool} {junk : Cells} {a : CStr} {ws : List CStr} {recs : List ErrRec} {text : CStr} (hw : WordsOk ws)
    (hb : ∀ w ∈ ws, '{' ∉ w) (h : MainDoes posix junk (a :: ws) (.errors recs)) (ht : reportText recs = some text) : '{' ∉ text := by
  obtain ⟨ms, hm⟩ := main_wrongs h
  rw [errors_rows h hm, reportText_rows (wrongs_plain hm hw), Option.some.injEq] at ht
  have hq := wrongs_made (· ≠ '{') hm fun w hx c hc he => hb w hx (he ▸ hc)
  have hl : ∀ m ∈ ms, '{' ∉ lineOf m := fun m hx => line_noBrace fun hc => hq m hx _ hc rfl
  subst ht
  simp only [List.mem_append, List.mem_flatten, not_or]
  refine ⟨?_, by decide⟩
  rintro ⟨l, h1, h2⟩
  unfold printedLines at h1
  split at h1
  · obtain ⟨m, h3, rfl⟩ := List.mem_map.1 h1
    exact hl m h3 h2
  · simp only [List.mem_append, List.mem_map, List.mem_singleton] at h1
    rcases h1 with ⟨m, h3, rfl⟩ | rfl
    · exact hl m (List.mem_of_mem_take h3) h2
    · revert h2; decide

/-! ## Text without a brace -/

theorem readResult_sub (k : Nat) (s : CStr) : ∀ c ∈ readResult k s, c ∈ s := by
  induction k generalizing s with
  | zero => simp [readResult]
  | succ k ih =>
    intro c hc
    cases s with
    | nil => simp [readResult] at hc
    | cons x s =>
      simp only [readResult, List.mem_append] at hc
      rw [← fgets_split 254 (x :: s), List.mem_append]
      rcases hc with hc | hc
      · exact Or.inl (List.takeWhile_subset _ hc)
      · exact Or.inr (ih _ c hc)

/-- Without a '{' the binding reads before its buffer. -/
theorem finish_noBrace {text : CStr} (h : '{' ∉ text) : Node.finish text = .ub := by
  suffices hh : Node.handed text = none from finish_none hh
  unfold Node.handed
  simp only
  have hn : ∀ k, lastBrace (readResult text.length text) k = -1 := by
    intro k
    rw [lastBrace_none 0 _ (Nat.zero_le _)]
    · rfl
    · intro i _ _ hc
      exact h (readResult_sub _ _ _ (List.mem_of_getElem? hc))
  split
  · rfl
  · rw [hn, if_pos (by decide)]

/-! ## C83 -/

/-- A well-typed request the shell and the buffers do not spoil (C63, C64): plain texts of at most 254 bytes, an environment only together with
arguments. -/
structure Harmless (q : Request) : Prop where
  texts : ∀ s, q.HasText s → AllPlain s ∧ s.length < 255
  env : q.env = none ∨ q.args ≠ none

theorem plain_noNul {s : CStr} (h : AllPlain s) : '\x00' ∉ s := fun hc => by
  have := h _ hc
  revert this; decide

theorem harmless_words {q : Request} (h : Harmless q) : ∀ e ∈ nodeEntries q, AllPlain e.word := by
  intro e he
  rcases mem_nodeEntries he with ⟨o, n, ho, _, rfl⟩ | ⟨o, s, ho, hs, rfl⟩
  · exact safe_word (safe_name o) (safe_showInt n)
  · exact safe_word (safe_name o) (h.texts s hs).1

theorem harmless_command {q : Request} (h : Harmless q) : command q.get = .ok (Node.judgerPath ++ spaced (nodeEntries q)) ∧
    commands (Node.judgerPath ++ spaced (nodeEntries q)) = some [Node.judgerPath :: (nodeEntries q).map Entry.word] := by
  refine ⟨command_ok q (fun s hs => ⟨plain_noNul (h.texts s hs).1, (h.texts s hs).2⟩) h.env,
    commands_spaced ?_ (by decide) (by decide) (by decide) (harmless_words h)⟩
  have : Node.judgerPath.all safe = true := by decide
  exact List.all_eq_true.mp this

/-- A harmless request that gets as far as `run()` is acceptable. -/
theorem harmless_runs {q : Request} (h : Harmless q) (hp : q.Proper) {posix : Bool} {junk : Cells} {c : Config}
    (hd : MainDoes posix junk (Node.judgerPath :: (nodeEntries q).map Entry.word) (.runs c)) : q.Ok := by
  obtain ⟨hf, _, _, _⟩ := runs_inv (scan_entries posix _ (nodeEntries_good q)) hd
  have hint : ∀ e ∈ nodeEntries q, e.opt.takes = .int → ∃ n, LooseIntText e.val n ∧ IsInt n := fun e he ht =>
    hf.ints e.opt e.val (List.mem_map.2 ⟨e, he, rfl⟩) ht
  have hfill : ∀ e ∈ nodeEntries q, e.val ≠ [] := fun e he => hf.filled e.opt e.val (List.mem_map.2 ⟨e, he, rfl⟩)
  have hv := vals_nodeEntries q
  constructor
  · have := hf.exe
    rw [times_entries, hv .exePath] at this
    cases hx : q.text .exePath with
    | none => simp [hx] at this
    | some s => exact ⟨s, rfl⟩
  · intro o n ho
    by_cases ht : o.takes = .int
    · have hm : o ∈ nodeInts := by cases o <;> first | decide | cases ht
      obtain ⟨m, h1, h2⟩ := hint ⟨o.name, o, showInt n⟩ (by
        simp only [nodeEntries, List.mem_append, List.mem_flatMap]
        exact Or.inl ⟨o, hm, by simp [optInt, ho]⟩) ht
      rw [loose_unique h1 h2 (Or.inl (intText_showInt n))]
      exact h2
    · rw [hp.ints o ht] at ho; cases ho
  · intro s hs
    rcases hs with ⟨o, ht, ho⟩ | hs | hs
    · by_cases hm : o ∈ nodeTexts
      · exact hfill ⟨o.name, o, s⟩ (by
          simp only [nodeEntries, List.mem_append, List.mem_flatMap]
          exact Or.inr (Or.inl ⟨o, hm, by simp [optText, ho]⟩))
      · rw [hp.texts o (by cases o <;> first | exact absurd (by decide) hm | exact Or.inr (Or.inl rfl) | exact Or.inr (Or.inr rfl) | exact Or.inl (by decide))] at ho
        cases ho
    · exact hfill ⟨c!"args", .args, s⟩ (by simp [nodeEntries, hs])
    · exact hfill ⟨c!"env", .env, s⟩ (by simp [nodeEntries, hs])
  · exact fun s hs => plain_noNul (h.texts s hs).1
  · have := hf.often .args
    rw [times_entries, hv .args] at this
    exact this
  · have := hf.often .env
    rw [times_entries, hv .env] at this
    exact this

/-- C83, the full claim: a call with a harmless request returns an object or throws. -/
def C83_full : Prop :=
  ∀ (posix : Bool) (junk : Cells) (prior : Result) (e : RunEnv) (out : CStr) (q : Request) (en : NodeEnd), Harmless q →
    NodeEnds posix junk prior e out q.get en → (∃ msg, en = .throws msg) ∨ ∃ printed v, en = .finished (.returns printed v)

theorem ends_words {posix : Bool} {junk : Cells} {prior : Result} {e : RunEnv} {out : CStr} {q : Request} {en : NodeEnd} (h : Harmless q)
    (hd : NodeEnds posix junk prior e out q.get en) :
    (∃ recs text, MainDoes posix junk (Node.judgerPath :: (nodeEntries q).map Entry.word) (.errors recs) ∧
      WordsOk ((nodeEntries q).map Entry.word) ∧ reportText recs = some text ∧ en = .finished (finish text)) ∨
    (∃ c r effs, MainDoes posix junk (Node.judgerPath :: (nodeEntries q).map Entry.word) (.runs c) ∧ run c prior e = .returned r effs ∧
      en = .finished (finish (out ++ resultText r))) := by
  obtain ⟨h1, h2⟩ := harmless_command h
  have key : ∀ cmd argv, command q.get = .ok cmd → commands cmd = some [argv] → argv = Node.judgerPath :: (nodeEntries q).map Entry.word := by
    intro cmd argv g1 g2
    rw [h1, NRes.ok.injEq] at g1
    subst g1
    rw [h2] at g2
    simpa using g2.symm
  cases hd with
  | refused msg g => rw [h1] at g; cases g
  | overrun g => rw [h1] at g; cases g
  | help cmd argv text g1 g2 g3 _ =>
    obtain rfl := key cmd argv g1 g2
    have := main_decides (scan_entries posix _ (nodeEntries_good q)) g3
    cases this with
    | help hh => rw [entries_noFlag (nodeEntries_good q) rfl] at hh; omega
  | version cmd argv g1 g2 g3 =>
    obtain rfl := key cmd argv g1 g2
    have := main_decides (scan_entries posix _ (nodeEntries_good q)) g3
    cases this with
    | version _ hh => rw [entries_noFlag (nodeEntries_good q) rfl] at hh; omega
  | told cmd argv recs text g1 g2 hw g3 g4 =>
    obtain rfl := key cmd argv g1 g2
    exact Or.inl ⟨recs, text, g3, fun w hx => hw w (List.mem_cons_of_mem _ hx), g4, rfl⟩
  | ran cmd argv c r effs g1 g2 g3 g4 =>
    obtain rfl := key cmd argv g1 g2
    exact Or.inr ⟨c, r, effs, g3, g4, rfl⟩

/-- C83, the part that holds: an acceptable request, and output without NUL bytes and of less than 1 GiB.  The object has the seven fields
`run()` stored for the configuration described.  Missing: requests that are not acceptable (`C83_refused`), other output (C62). -/
theorem C83_returns_partial (posix : Bool) (junk : Cells) (prior : Result) (e : RunEnv) (out : CStr) (q : Request) (en : NodeEnd)
    (h : Harmless q) (hq : q.Ok) (hn : (q.args.getD []).length < 255) (h0 : '\x00' ∉ out)
    (hl : ∀ r : Result, ((out ++ resultText r).length : Int) ≤ INT_MAX) (hd : NodeEnds posix junk prior e out q.get en) :
    ∃ r effs, run q.wanted prior e = .returned r effs ∧ en = .finished (.returns out (.ofInts (sevenMembers r))) := by
  obtain ⟨cmd, argv, g1, g2, g3⟩ := C63_plain_partial q hq hn h.env h.texts
  obtain ⟨k1, k2⟩ := harmless_command h
  rw [k1, NRes.ok.injEq] at g1
  subst g1
  rw [k2] at g2
  obtain rfl : _ = argv := by simpa using g2
  rcases ends_words h hd with ⟨recs, text, m, _⟩ | ⟨c, r, effs, m, hr, rfl⟩
  · exact nomatch (g3 posix junk).unique m
  · have := (g3 posix junk).unique m
    simp only [MainOut.runs.injEq] at this
    subst this
    exact ⟨r, effs, hr, by rw [C62_result_found_partial out r h0 (hl r)]; rfl⟩

/-- C83: with a request the judger refuses, the binding reads before its buffer: the report contains no '{'. -/
theorem C83_refused (posix : Bool) (junk : Cells) (prior : Result) (e : RunEnv) (out : CStr) (q : Request) (en : NodeEnd)
    (h : Harmless q) (hp : q.Proper) (hq : ¬q.Ok) (hd : NodeEnds posix junk prior e out q.get en) : en = .finished .ub := by
  rcases ends_words h hd with ⟨recs, text, m, hw, ht, rfl⟩ | ⟨c, r, effs, m, hr, rfl⟩
  · rw [finish_noBrace (report_noBrace hw _ m ht)]
    intro w hx hc
    obtain ⟨e, he, rfl⟩ := List.mem_map.1 hx
    have := harmless_words h e he _ hc
    revert this; decide
  · exact absurd (harmless_runs h hp m) hq

/-- C83: the command starts with the installed judger. -/
theorem C83_program (get : CStr → JsVal) (cmd : CStr) (h : command get = .ok cmd) : c!"/usr/lib/judger/libjudger.so" <+: cmd := by
  unfold command at h
  split at h <;> try cases h
  split at h <;> try cases h
  split at h <;> try cases h
  split at h <;> try cases h
  exact List.prefix_append _ _

/-- A request for 4 GiB of memory. -/
def bigRequest : Request where
  int := fun o => if o = .maxMemory then some 4294967296 else none
  text := fun o => if o = .exePath then some c!"/bin/echo" else none
  args := none
  env := none

theorem big_text {s : CStr} (h : bigRequest.HasText s) : s = c!"/bin/echo" := by
  rcases h with ⟨o, _, h⟩ | h | h
  · simp only [bigRequest] at h
    split at h
    · simpa using h.symm
    · cases h
  · cases h
  · cases h

theorem big_harmless : Harmless bigRequest where
  texts := fun s h => by rw [big_text h]; exact ⟨List.all_eq_true.mp (by decide), by decide⟩
  env := Or.inl rfl

theorem big_proper : bigRequest.Proper where
  ints := by intro o h; cases o <;> first | rfl | exact absurd rfl h
  texts := by intro o h; cases o <;> first | rfl | simp [Opt.takes] at h

theorem big_words : (nodeEntries bigRequest).map Entry.word = [c!"--max_memory=4294967296", c!"--exe_path=/bin/echo"] := by
  have h : showInt 4294967296 = c!"4294967296" := by simp [showInt, showNat, digitChar]
  have h' : (nodeEntries bigRequest).map Entry.word = [c!"--max_memory=" ++ showInt 4294967296, c!"--exe_path=/bin/echo"] := rfl
  rw [h', h]
  rfl

theorem big_ends (posix : Bool) (junk : Cells) (prior : Result) (e : RunEnv) (out : CStr) :
    NodeEnds posix junk prior e out bigRequest.get (.finished .ub) := by
  have hok : ¬bigRequest.Ok := fun h => absurd (h.ints .maxMemory 4294967296 rfl) (by decide)
  obtain ⟨k1, k2⟩ := harmless_command big_harmless
  obtain ⟨o, h1, h2⟩ := main_exists (junk := junk) (a := Node.judgerPath) (scan_entries posix _ (nodeEntries_good bigRequest))
  have hw : WordsOk (Node.judgerPath :: (nodeEntries bigRequest).map Entry.word) := by
    rw [big_words]
    intro w hx
    simp only [List.mem_cons, List.not_mem_nil, or_false] at hx
    rcases hx with rfl | rfl | rfl <;> exact ⟨by decide, by decide⟩
  cases h2 with
  | help hh => rw [entries_noFlag (nodeEntries_good _) rfl] at hh; omega
  | version _ hh => rw [entries_noFlag (nodeEntries_good _) rfl] at hh; omega
  | runs c => exact absurd (harmless_runs big_harmless big_proper h1) hok
  | errors recs =>
    obtain ⟨T, hT⟩ := C78_report_safe posix junk _ hw recs h1
    have hd := NodeEnds.told (prior := prior) (e := e) (out := out) _ _ recs T k1 k2 hw h1 hT
    have := C83_refused _ _ _ _ _ _ _ big_harmless big_proper hok hd
    rw [this] at hd
    exact hd

/-- C83 is false of the code: asking for 4 GiB of memory is undefined behaviour. -/
theorem C83_false : ¬C83_full := by
  intro h
  rcases h false (fun _ => none) ⟨0, 0, 0, 0, 0, 0, 0⟩ (sampleEnv 0) [] bigRequest _ big_harmless (big_ends ..) with ⟨m, hm⟩ | ⟨p, ms, hm⟩
  · cases hm
  · cases hm

/-- A harmless, acceptable request and its end. -/
example : ∃ r, NodeEnds false (fun _ => none) ⟨0, 0, 0, 0, 0, 0, 0⟩ (sampleEnv 0) c!"hello\n" (nodeSample (some [c!"hello"]) none).get
    (.finished (finish (c!"hello\n" ++ resultText r))) := by
  have ht : ∀ s, (nodeSample (some [c!"hello"]) none).HasText s → AllPlain s ∧ s.length < 255 := by
    intro s h
    rcases nodeSample_text h with rfl | h | h
    · exact ⟨List.all_eq_true.mp (by decide), by decide⟩
    · obtain rfl : s = c!"hello" := by simpa using h
      exact ⟨List.all_eq_true.mp (by decide), by decide⟩
    · simp at h
  obtain ⟨cmd, argv, g1, g2, g3⟩ := C63_plain_partial (nodeSample (some [c!"hello"]) none) (nodeSample_ok _ _ (by decide) (by decide) (by decide))
    (by decide) (Or.inl rfl) ht
  obtain ⟨r, effs, hr⟩ := run_returns (nodeSample (some [c!"hello"]) none).wanted ⟨0, 0, 0, 0, 0, 0, 0⟩ (sampleEnv 0) (by decide)
  exact ⟨r, .ran cmd argv _ r effs g1 g2 (g3 _ _) hr⟩

/-! ## C84 -/

theorem each_throws {α : Type} {f : α → NRes CStr} {xs : List α} (hub : ∀ x ∈ xs, f x ≠ .ub) (h : ∃ x ∈ xs, ∃ m, f x = .throws m) :
    ∃ x ∈ xs, ∃ m, f x = .throws m ∧ each f xs = .throws m := by
  induction xs with
  | nil => simp at h
  | cons x xs ih =>
    cases hx : f x with
    | throws m => exact ⟨x, by simp, m, hx, by simp [each, hx]⟩
    | ub => exact absurd hx (hub x (by simp))
    | ok a =>
      have h' : ∃ x ∈ xs, ∃ m, f x = .throws m := by
        obtain ⟨y, hy, m, hm⟩ := h
        rcases List.mem_cons.1 hy with rfl | hy
        · rw [hx] at hm; cases hm
        · exact ⟨y, hy, m, hm⟩
      obtain ⟨y, hy, m, h1, h2⟩ := ih (fun y hy => hub y (by simp [hy])) h'
      exact ⟨y, by simp [hy], m, h1, by simp [each, hx, h2]⟩

theorem each_noUb {α : Type} {f : α → NRes CStr} {xs : List α} (hub : ∀ x ∈ xs, f x ≠ .ub) :
    (∃ a, each f xs = .ok a) ∨ ∃ m, each f xs = .throws m := by
  induction xs with
  | nil => exact Or.inl ⟨_, rfl⟩
  | cons x xs ih =>
    cases hx : f x with
    | throws m => exact Or.inr ⟨m, by simp [each, hx]⟩
    | ub => exact absurd hx (hub x (by simp))
    | ok a =>
      rcases ih fun y hy => hub y (by simp [hy]) with ⟨b, hb⟩ | ⟨m, hm⟩
      · exact Or.inl ⟨a ++ b, by simp [each, hx, hb]⟩
      · exact Or.inr ⟨m, by simp [each, hx, hm]⟩

theorem each_throws_inv {α : Type} {f : α → NRes CStr} {xs : List α} {m : CStr} (h : each f xs = .throws m) : ∃ x ∈ xs, f x = .throws m := by
  induction xs with
  | nil => cases h
  | cons x xs ih =>
    simp only [each] at h
    cases hx : f x with
    | throws m' => rw [hx] at h; exact ⟨x, by simp, by rw [hx]; exact h⟩
    | ub => rw [hx] at h; cases h
    | ok a =>
      rw [hx] at h
      simp only at h
      cases hy : each f xs with
      | ok b => rw [hy] at h; cases h
      | ub => rw [hy] at h; cases h
      | throws m' =>
        rw [hy] at h
        obtain ⟨y, h1, h2⟩ := ih (by rw [hy]; exact h)
        exact ⟨y, by simp [h1], h2⟩

theorem toNumber_noUb (get : CStr → JsVal) (key : CStr) : toNumber get key ≠ .ub := by
  unfold toNumber
  split <;> simp

theorem toNumber_throws {get : CStr → JsVal} {key m : CStr} (h : toNumber get key = .throws m) :
    m = c!"typeof argument must be Object!" ∧ get key ≠ .undefined ∧ get key ≠ .null ∧ ∀ n, get key ≠ .number n := by
  unfold toNumber at h
  cases ht : get key with
  | undefined => rw [ht] at h; cases h
  | null => rw [ht] at h; cases h
  | number n => rw [ht] at h; cases h
  | _ => rw [ht] at h; simp only [NRes.throws.injEq] at h; exact ⟨h.symm, nofun, nofun, nofun⟩

/-- The text fits the buffer it is copied to. -/
def FitsBuffer (s : CStr) : Prop := (s.takeWhile (· ≠ '\x00')).length < 255

theorem copyText_throws (s m : CStr) : Node.copyText s ≠ .throws m := by
  unfold Node.copyText
  simp only
  split <;> simp

theorem toCStr_noUb {v : JsVal} {key : CStr} (h : ∀ s, target v key = .string s → FitsBuffer s) : toCStr v key ≠ .ub := by
  unfold toCStr
  cases ht : target v key with
  | string s =>
    have := h s ht
    unfold FitsBuffer at this
    simp only [Node.copyText, this, if_true]
    nofun
  | _ => nofun

theorem toCStr_throws {v : JsVal} {key m : CStr} (h : toCStr v key = .throws m) :
    m = c!"typeof " ++ key ++ c!" must be String!" ∧ target v key ≠ .undefined ∧ target v key ≠ .null ∧ ∀ s, target v key ≠ .string s := by
  unfold toCStr at h
  cases ht : target v key with
  | undefined => rw [ht] at h; cases h
  | null => rw [ht] at h; cases h
  | string s =>
    rw [ht] at h
    simp only at h
    cases hc : Node.copyText s with
    | ok t => rw [hc] at h; cases h
    | ub => rw [hc] at h; cases h
    | throws m' => exact absurd hc (copyText_throws s m')
  | _ => rw [ht] at h; simp only [NRes.throws.injEq] at h; exact ⟨h.symm, nofun, nofun, nofun⟩

theorem wrong_toNumber {get : CStr → JsVal} {o : Opt} (ho : o ∈ nodeInts) (h : WrongType o (get o.name)) :
    ∃ m, toNumber get o.name = .throws m := by
  obtain ⟨h1, h2, h3⟩ := h
  have h3 : ¬∃ n, get o.name = .number n := by cases o <;> first | exact h3 | exact absurd ho (by decide)
  unfold toNumber
  split
  · rename_i he; exact absurd he h1
  · rename_i he; exact absurd he h2
  · rename_i n he; exact absurd ⟨n, he⟩ h3
  · exact ⟨_, rfl⟩

theorem wrong_toCStr {get : CStr → JsVal} {o : Opt} (ho : o ∈ nodeTexts) (h : WrongType o (get o.name)) :
    ∃ m, toCStr (.object get) o.name = .throws m := by
  obtain ⟨h1, h2, h3⟩ := h
  have h3 : ¬∃ s, get o.name = .string s := by cases o <;> first | exact h3 | exact absurd ho (by decide)
  unfold toCStr target
  simp only
  split
  · rename_i he; exact absurd he h1
  · rename_i he; exact absurd he h2
  · rename_i n he; exact absurd ⟨n, he⟩ h3
  · exact ⟨_, rfl⟩

theorem wrong_of_number {get : CStr → JsVal} {o : Opt} (ho : o ∈ nodeInts) {m : CStr} (h : toNumber get o.name = .throws m) :
    WrongType o (get o.name) ∧ o.takes = .int ∧ m = c!"typeof argument must be Object!" := by
  obtain ⟨h1, h2, h3, h4⟩ := toNumber_throws h
  have h5 : ¬∃ n, get o.name = .number n := fun ⟨n, hn⟩ => h4 n hn
  refine ⟨⟨h2, h3, ?_⟩, ?_, h1⟩ <;> (cases o <;> first | exact h5 | rfl | exact absurd ho (by decide))

theorem wrong_of_text {get : CStr → JsVal} {o : Opt} (ho : o ∈ nodeTexts) {m : CStr} (h : toCStr (.object get) o.name = .throws m) :
    WrongType o (get o.name) ∧ o.name <:+: m := by
  obtain ⟨h1, h2, h3, h4⟩ := toCStr_throws h
  have h5 : ¬∃ s, get o.name = .string s := fun ⟨n, hn⟩ => h4 n hn
  refine ⟨⟨h2, h3, ?_⟩, ?_⟩
  · cases o <;> first | exact h5 | exact absurd ho (by decide)
  · rw [h1]; exact ⟨_, _, rfl⟩

/-- C84, the full claim: a property of the wrong type gives an exception, and its message names one that is wrong. -/
def C84_full : Prop :=
  ∀ (get : CStr → JsVal) (o : Opt), o ∈ options → WrongType o (get o.name) →
    ∃ msg, command get = .throws msg ∧ ∃ o', WrongType o' (get o'.name) ∧ o'.name <:+: msg

theorem intVars_eq : Node.intVars = nodeInts.map Opt.name := rfl
theorem strVars_eq : Node.strVars = nodeTexts.map Opt.name := rfl

/-- C84, the part that holds: a wrong number, a wrong text, or an `args` that is no list is an exception, once the texts fit their buffers (C63);
a text or a list is named.  Missing: items of the lists (`C84_false`), `env` (C64), and the name of a wrong number. -/
theorem C84_refused_partial (get : CStr → JsVal) (o : Opt) (ho : o ∈ options) (hw : WrongType o (get o.name))
    (hb : ∀ o' s, get (Opt.name o') = .string s → FitsBuffer s) (he : o ≠ .env) (ha : o = .args → (get c!"args").isArray = false) :
    ∃ msg, command get = .throws msg ∧
      ((msg = c!"typeof argument must be Object!" ∧ ∃ o', o'.takes = .int ∧ WrongType o' (get o'.name)) ∨
       ∃ o', WrongType o' (get o'.name) ∧ o'.name <:+: msg) := by
  unfold command
  rw [intVars_eq, strVars_eq]
  have hub1 : ∀ x ∈ nodeInts.map Opt.name, toNumber get x ≠ .ub := fun x _ => toNumber_noUb get x
  have hub2 : ∀ x ∈ nodeTexts.map Opt.name, toCStr (.object get) x ≠ .ub := by
    intro x hx
    obtain ⟨o', _, rfl⟩ := List.mem_map.1 hx
    exact toCStr_noUb fun s hs => hb o' s hs
  rcases each_noUb hub1 with ⟨a, h1⟩ | ⟨m, h1⟩
  · rw [h1]
    simp only
    have hni : o ∉ nodeInts := by
      intro hm
      obtain ⟨x, _, m, _, h2⟩ := each_throws hub1 ⟨o.name, List.mem_map.2 ⟨o, hm, rfl⟩, wrong_toNumber hm hw⟩
      rw [h1] at h2; cases h2
    rcases each_noUb hub2 with ⟨b, h2⟩ | ⟨m, h2⟩
    · rw [h2]
      simp only
      have hnt : o ∉ nodeTexts := by
        intro hm
        obtain ⟨x, _, m, _, h3⟩ := each_throws hub2 ⟨o.name, List.mem_map.2 ⟨o, hm, rfl⟩, wrong_toCStr hm hw⟩
        rw [h2] at h3; cases h3
      have hoa : o = .args := by
        cases o <;> first | rfl | exact absurd rfl he | exact absurd (by decide) hni | exact absurd (by decide) hnt | exact absurd ho (by decide)
      subst hoa
      have h3 : argsPart (get c!"args") = .throws c!"args must be a list" := by
        have g1 : get c!"args" ≠ .undefined := hw.1
        have g2 : get c!"args" ≠ .null := hw.2.1
        have g3 := ha rfl
        cases hv : get c!"args" with
        | undefined => exact absurd hv g1
        | null => exact absurd hv g2
        | array items => rw [hv] at g3; cases g3
        | _ => rfl
      rw [h3]
      exact ⟨_, rfl, Or.inr ⟨.args, hw, [], c!" must be a list", rfl⟩⟩
    · rw [h2]
      obtain ⟨x, hx, h3⟩ := each_throws_inv h2
      obtain ⟨o', ho', rfl⟩ := List.mem_map.1 hx
      exact ⟨m, rfl, Or.inr ⟨o', wrong_of_text ho' h3⟩⟩
  · rw [h1]
    obtain ⟨x, hx, h3⟩ := each_throws_inv h1
    obtain ⟨o', ho', rfl⟩ := List.mem_map.1 hx
    obtain ⟨g1, g2, g3⟩ := wrong_of_number ho' h3
    exact ⟨m, rfl, Or.inl ⟨g3, o', g2, g1⟩⟩

theorem items_wrong {key m : CStr} {items : List JsVal} (h : each (toCStr · key) items = .throws m) :
    m = c!"typeof " ++ key ++ c!" must be String!" ∧ ¬∃ ss : List CStr, JsVal.array items = .array (ss.map .string) := by
  obtain ⟨x, hx, h1⟩ := each_throws_inv h
  obtain ⟨h2, h3, h4, h5⟩ := toCStr_throws h1
  refine ⟨h2, ?_⟩
  rintro ⟨ss, hs⟩
  rw [JsVal.array.injEq] at hs
  subst hs
  obtain ⟨s, _, rfl⟩ := List.mem_map.1 hx
  exact h5 s rfl

/-- C84: an exception is thrown only if something has the wrong type, or an environment comes without arguments (C64). -/
theorem C84_message (get : CStr → JsVal) (m : CStr) (h : command get = .throws m) :
    (m = c!"typeof argument must be Object!" ∧ ∃ o, o.takes = .int ∧ WrongType o (get o.name)) ∨
    (∃ o, WrongType o (get o.name) ∧ o.name <:+: m) ∨
    (m = c!"env must be a list" ∧ (get c!"args").isArray = false) := by
  unfold command at h
  rw [intVars_eq, strVars_eq] at h
  cases h1 : each (toNumber get) (nodeInts.map Opt.name) with
  | ub => rw [h1] at h; cases h
  | throws m' =>
    rw [h1] at h
    simp only [NRes.throws.injEq] at h
    subst h
    obtain ⟨x, hx, h3⟩ := each_throws_inv h1
    obtain ⟨o', ho', rfl⟩ := List.mem_map.1 hx
    obtain ⟨g1, g2, g3⟩ := wrong_of_number ho' h3
    exact Or.inl ⟨g3, o', g2, g1⟩
  | ok a =>
  cases h2 : each (fun key => toCStr (.object get) key) (nodeTexts.map Opt.name) with
  | ub => rw [h1, h2] at h; cases h
  | throws m' =>
    rw [h1, h2] at h
    simp only [NRes.throws.injEq] at h
    subst h
    obtain ⟨x, hx, h3⟩ := each_throws_inv h2
    obtain ⟨o', ho', rfl⟩ := List.mem_map.1 hx
    exact Or.inr (Or.inl ⟨o', wrong_of_text ho' h3⟩)
  | ok b =>
  cases h3 : argsPart (get c!"args") with
  | ub => rw [h1, h2, h3] at h; cases h
  | throws m' =>
    rw [h1, h2, h3] at h
    simp only [NRes.throws.injEq] at h
    subst h
    refine Or.inr (Or.inl ⟨.args, ?_⟩)
    show WrongType .args (get c!"args") ∧ _
    cases hv : get c!"args" with
    | undefined => rw [hv] at h3; cases h3
    | null => rw [hv] at h3; cases h3
    | array items =>
      rw [hv] at h3
      obtain ⟨g1, g2⟩ := items_wrong h3
      exact ⟨⟨nofun, nofun, g2⟩, by rw [g1]; exact ⟨_, _, rfl⟩⟩
    | _ =>
      rw [hv] at h3
      simp only [argsPart, NRes.throws.injEq] at h3
      exact ⟨⟨nofun, nofun, (by rintro ⟨ss, hs⟩; cases hs)⟩, by rw [← h3]; exact ⟨[], c!" must be a list", rfl⟩⟩
  | ok c =>
  cases h4 : envPart (get c!"args") (get c!"env") with
  | ub => rw [h1, h2, h3, h4] at h; cases h
  | ok d => rw [h1, h2, h3, h4] at h; cases h
  | throws m' =>
    rw [h1, h2, h3, h4] at h
    simp only [NRes.throws.injEq] at h
    subst h
    unfold envPart at h4
    split at h4
    · cases h4
    · split at h4
      · split at h4
        · rename_i items hv
          obtain ⟨g1, g2⟩ := items_wrong h4
          refine Or.inr (Or.inl ⟨.env, ?_⟩)
          show WrongType .env (get c!"env") ∧ _
          rw [hv]
          exact ⟨⟨nofun, nofun, g2⟩, by rw [g1]; exact ⟨_, _, rfl⟩⟩
        · cases h4
      · rename_i hna
        simp only [NRes.throws.injEq] at h4
        exact Or.inr (Or.inr ⟨h4.symm, by simpa using hna⟩)

/-- An object whose argument list holds more than strings. -/
def mixedGet (key : CStr) : JsVal :=
  if key = c!"exe_path" then .string c!"/bin/echo"
  else if key = c!"args" then .array [.string c!"a", .null, .array [.string c!"b"], .string c!"c"]
  else .undefined

/-- C84 is false of the code: what is not a string may silently vanish from the arguments. -/
theorem C84_witness : command mixedGet = .ok c!"/usr/lib/judger/libjudger.so --exe_path=/bin/echo --args=a --args=c" := rfl

theorem C84_false : ¬C84_full := by
  intro h
  obtain ⟨msg, h1, _⟩ := h mixedGet .args (by decide) ⟨nofun, nofun, by
    rintro ⟨ss, hs⟩
    have hs : JsVal.array [.string c!"a", .null, .array [.string c!"b"], .string c!"c"] = .array (ss.map .string) := hs
    rw [JsVal.array.injEq] at hs
    match ss, hs with
    | _ :: _ :: _, hs => simp at hs⟩
  rw [C84_witness] at h1
  cases h1

/-- A text where a number belongs. -/
example : ∃ msg, command (fun key => if key = c!"max_memory" then .string c!"64M" else .undefined) = .throws msg := ⟨_, rfl⟩

/-! ## C126: calls that cannot be carried out -/

/-- C126, the full claim: without an object as argument, or if `popen` fails, an exception is thrown. -/
def C126_full : Prop := ∀ (arg : JsVal) (popen : Bool), arg.isObject = false ∨ popen = false → ∃ msg, Node.method arg popen = .throws msg

/-- C126, what there is to it: with an object, what is run, and what is thrown, is decided by its properties alone, as C63, C64 and C84 say.  A wrong
property is thrown whether or not `popen` would have worked.  Missing: other arguments, and `popen` failing. -/
theorem C126_object_partial (arg : JsVal) (h : arg.isObject = true) :
    Node.method arg true = command arg.props ∧ ∀ m popen, Node.method arg popen = .throws m ↔ command arg.props = .throws m := by
  unfold Node.method
  rw [h]
  constructor
  · cases command arg.props <;> rfl
  · intro m popen
    cases command arg.props <;> cases popen <;> simp

/-- C126: exactly these calls do something that C++ or V8 does not define. -/
theorem C126_undefined (arg : JsVal) (popen : Bool) :
    Node.method arg popen = .ub ↔
      arg.isObject = false ∨ command arg.props = .ub ∨ ((∃ cmd, command arg.props = .ok cmd) ∧ popen = false) := by
  unfold Node.method
  cases h : arg.isObject <;> cases command arg.props <;> cases popen <;> simp

example : JsVal.isObject (.object mixedGet) = true ∧
    Node.method (.object mixedGet) true = .ok c!"/usr/lib/judger/libjudger.so --exe_path=/bin/echo --args=a --args=c" := ⟨rfl, rfl⟩

/-- An array is an object: the judger is run without any options. -/
example : Node.method (.array [.string c!"/bin/echo"]) true = .ok c!"/usr/lib/judger/libjudger.so" := rfl

/-- `run()`, and `run({exe_path: ...})` when no process can be made. -/
theorem C126_witness : Node.method .undefined true = .ub ∧ Node.method (.object mixedGet) false = .ub := ⟨rfl, rfl⟩

/-- C126 is false of the code. -/
theorem C126_false : ¬C126_full := by
  intro h
  obtain ⟨msg, h1⟩ := h .undefined true (.inl rfl)
  rw [C126_witness.1] at h1
  cases h1

end Judger
