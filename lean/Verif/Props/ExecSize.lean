import Verif.Props.Cli
import Verif.Props.Child
import Verif.Spec.ExecSize

/-! # C131: what can be passed to the judger can be passed on to the program -/

set_option autoImplicit false

namespace Judger

open Judger.Spec Judger.Spec.Cli

/-- C131, the full claim: if the command line of the judger was not too long for the stack limit `stack` of its caller, then the arguments and the
environment in it are not too long for the program under the stack limit of the request. -/
def C131_full : Prop :=
  ∀ (posix : Bool) (junk : Cells) (stack : Int) (path a : CStr) (ws envp : List CStr) (c : Config),
    FitsExec stack path (a :: ws) envp → MainDoes posix junk (a :: ws) (.runs c) → ConfigOk c → FitsExec c.maxStack c.exePath c.args c.env

/-- The bytes that the values of an option stand for. -/
def valueBytes (vs : List CStr) : Nat := (vs.map fun v => v.length + 12).sum

/-- The bytes and pointers of words. -/
def wordBytes (ws : List CStr) : Nat := (ws.map fun w => w.length + 9).sum

theorem calls_ne_nil {n : CStr} {o : Opt} (h : Calls n o) : n ≠ [] := by
  rintro rfl
  rcases h with h | ⟨_, h⟩
  · cases o <;> cases h
  · have h1 := h .help (List.nil_prefix)
    have h2 := h .version (List.nil_prefix)
    rw [← h1] at h2
    cases h2

/-- Option names cost 12 bytes at least. -/
theorem scan_bytes {posix : Bool} {ws : List CStr} {is : List Item} (h : Scan posix ws is) :
    valueBytes (given .exePath is) + valueBytes (given .args is) + valueBytes (given .env is) ≤ wordBytes ws ∧
    (∀ v, v ∈ given .exePath is ∨ v ∈ given .args is ∨ v ∈ given .env is → ∃ w ∈ ws, v.length ≤ w.length) := by
  have opt : ∀ (o : Opt) (v : CStr) (is : List Item),
      valueBytes (given .exePath (.opt o (some v) :: is)) + valueBytes (given .args (.opt o (some v) :: is)) +
        valueBytes (given .env (.opt o (some v) :: is)) ≤
      v.length + 12 + (valueBytes (given .exePath is) + valueBytes (given .args is) + valueBytes (given .env is)) ∧
      ∀ x, x ∈ given .exePath (.opt o (some v) :: is) ∨ x ∈ given .args (.opt o (some v) :: is) ∨ x ∈ given .env (.opt o (some v) :: is) →
        x = v ∨ x ∈ given .exePath is ∨ x ∈ given .args is ∨ x ∈ given .env is := by
    intro o v is
    cases o <;> simp only [given, reduceCtorEq, if_true, if_false] <;> refine ⟨by simp [valueBytes]; try omega, ?_⟩ <;> intro x hx <;> (try simp at hx ⊢) <;> tauto
  induction h with
  | nil => simp [given, valueBytes, wordBytes]
  | value n v o ws is hc _ _ ih =>
    have hl : 0 < n.length := List.length_pos_iff.2 (calls_ne_nil hc)
    refine ⟨?_, fun x hx => ?_⟩
    · have := (opt o v is).1
      simp only [wordBytes, List.map_cons, List.sum_cons, List.length_cons, List.length_append] at ih ⊢
      omega
    · rcases (opt o v is).2 x hx with rfl | hx
      · exact ⟨_, .head _, by simp; omega⟩
      · obtain ⟨w, h1, h2⟩ := ih.2 x hx
        exact ⟨w, .tail _ h1, h2⟩
  | spaced n v o ws is hc _ _ ih =>
    refine ⟨?_, fun x hx => ?_⟩
    · have := (opt o v is).1
      simp only [wordBytes, List.map_cons, List.sum_cons, List.length_cons] at ih ⊢
      omega
    · rcases (opt o v is).2 x hx with rfl | hx
      · exact ⟨x, .tail _ (.head _), Nat.le_refl _⟩
      · obtain ⟨w, h1, h2⟩ := ih.2 x hx
        exact ⟨w, .tail _ (.tail _ h1), h2⟩
  | flag n o ws is _ _ _ ih =>
    refine ⟨?_, fun x hx => ?_⟩
    · simp only [wordBytes, List.map_cons, List.sum_cons, given] at ih ⊢
      omega
    · obtain ⟨w, h1, h2⟩ := ih.2 x hx
      exact ⟨w, .tail _ h1, h2⟩
  | missing => simp [given, valueBytes]
  | unknown b ws is _ _ _ _ ih =>
    refine ⟨?_, fun x hx => ?_⟩
    · simp only [wordBytes, List.map_cons, List.sum_cons, given] at ih ⊢
      omega
    · obtain ⟨w, h1, h2⟩ := ih.2 x hx
      exact ⟨w, .tail _ h1, h2⟩
  | letters s ws is _ _ _ ih =>
    refine ⟨?_, fun x hx => ?_⟩
    · simp only [wordBytes, List.map_cons, List.sum_cons, given] at ih ⊢
      omega
    · obtain ⟨w, h1, h2⟩ := ih.2 x hx
      exact ⟨w, .tail _ h1, h2⟩
  | lettersLong s b ws is _ _ _ _ ih =>
    refine ⟨?_, fun x hx => ?_⟩
    · simp only [wordBytes, List.map_cons, List.sum_cons, given, List.length_cons, List.length_append] at ih ⊢
      omega
    · obtain ⟨w, h1, h2⟩ := ih.2 x hx
      rcases List.mem_cons.1 h1 with rfl | h1
      · exact ⟨_, .head _, by simp at h2 ⊢; omega⟩
      · exact ⟨w, .tail _ h1, h2⟩
  | positional w ws is _ _ _ ih =>
    refine ⟨?_, fun x hx => ?_⟩
    · simp only [wordBytes, List.map_cons, List.sum_cons, given] at ih ⊢
      omega
    · obtain ⟨w, h1, h2⟩ := ih.2 x hx
      exact ⟨w, .tail _ h1, h2⟩
  | positionalEnd => simp [given, valueBytes]
  | dashes ws => split <;> simp [given, valueBytes]

theorem textBytes_le (vs : List CStr) : 8 * vs.length + textBytes vs ≤ valueBytes vs := by
  induction vs with
  | nil => simp [textBytes, valueBytes]
  | cons v vs ih =>
    simp only [textBytes, valueBytes, List.map_cons, List.sum_cons, List.length_cons] at ih ⊢
    omega

theorem wordBytes_eq (ws : List CStr) : wordBytes ws = 8 * ws.length + textBytes ws := by
  induction ws with
  | nil => rfl
  | cons v vs ih =>
    simp only [textBytes, wordBytes, List.map_cons, List.sum_cons, List.length_cons] at ih ⊢
    omega

/-- The program takes no more than the judger did, and its own path once more. -/
theorem passed_on {posix : Bool} {junk : Cells} {path a : CStr} {ws envp : List CStr} {c : Config}
    (h : MainDoes posix junk (a :: ws) (.runs c)) (hn : c.args.length ≤ 255) :
    execBytes c.exePath c.args c.env + 12 ≤ execBytes path (a :: ws) envp + c.exePath.length ∧
    ∀ s ∈ c.exePath :: (c.args ++ c.env), ∃ w ∈ ws, s.length ≤ w.length := by
  obtain ⟨is, hs, _⟩ := main_scan h
  obtain ⟨_, hm, ha, he⟩ := runs_inv hs h
  have hx := hm.exe
  have hargs : c.args = c.exePath :: given .args is := by
    rw [ha]
    split
    · rename_i h255
      rw [ha, if_pos h255] at hn
      simp at hn
      omega
    · rw [List.append_nil]
  obtain ⟨h1, h2⟩ := scan_bytes hs
  have h3 := textBytes_le (given .args is)
  have h4 := textBytes_le (given .env is)
  rw [hx] at h1 h2
  rw [wordBytes_eq] at h1
  refine ⟨?_, fun s hs => h2 s ?_⟩
  · rw [hargs, he]
    simp only [execBytes, textBytes, valueBytes, List.map_cons, List.map_nil, List.sum_cons, List.sum_nil, List.length_cons] at *
    omega
  · rw [hargs, he] at hs
    simp at hs ⊢
    tauto

/-- C131, the part that holds: there is room for the judger's command line and the path of the program, and fewer than 255 arguments are given (C50).
Missing: requests with a small stack limit (`C131_witness`). -/
theorem C131_room_partial (posix : Bool) (junk : Cells) (stack : Int) (path a : CStr) (ws envp : List CStr) (c : Config)
    (hf : FitsExec stack path (a :: ws) envp) (h : MainDoes posix junk (a :: ws) (.runs c)) (hn : c.args.length ≤ 255)
    (hroom : (execBytes path (a :: ws) envp + c.exePath.length : Int) ≤ execSpace c.maxStack + 12) : FitsExec c.maxStack c.exePath c.args c.env := by
  obtain ⟨h1, h2⟩ := passed_on (path := path) (envp := envp) h hn
  refine ⟨by omega, fun s hs => ?_⟩
  obtain ⟨w, h3, h4⟩ := h2 s hs
  have := hf.2 w (by simp [h3])
  omega

/-- C131, the usual case: the request gives no stack limit, so that it is 16 MiB, and the judger's caller has the usual 8 MiB, or less. -/
theorem C131_default_partial (posix : Bool) (junk : Cells) (stack : Int) (path a : CStr) (ws envp : List CStr) (is : List Item) (c : Config)
    (hf : FitsExec stack path (a :: ws) envp) (hstack : stack ≤ 8388608) (h : MainDoes posix junk (a :: ws) (.runs c)) (hn : c.args.length ≤ 255)
    (hs : Scan posix ws is) (hd : times .maxStack is = 0) : FitsExec c.maxStack c.exePath c.args c.env := by
  have hm : c.maxStack = 16777216 := by
    obtain ⟨_, hm, _⟩ := runs_inv hs h
    rcases hm.stack with ⟨t, h1, _⟩ | ⟨_, h1⟩
    · have := given_length_le .maxStack is
      rw [h1, hd] at this
      simp at this
    · rw [h1]; decide
  refine C131_room_partial posix junk stack path a ws envp c hf h hn ?_
  have h1 := hf.1
  obtain ⟨w, h3, h4⟩ := (passed_on (path := path) (envp := envp) h hn).2 c.exePath (.head _)
  have := hf.2 w (by simp [h3])
  rw [hm]
  simp only [execSpace] at *
  omega

/-- What it means: the program is not started if its strings are too long for the stack limit of the request. -/
theorem C131_refused (c : Config) (e : ChildEnv) (p : Proc) (hc : ConfigOk c) (hr : c.InRange) (hk : MindsSize c e p)
    (hf : ¬FitsExec c.maxStack c.exePath c.args c.env) : ¬∃ q, Started c e p q := by
  rintro ⟨q, path, argv, envp, h⟩
  obtain ⟨s, q', h1, h2⟩ := C25_never_returns c e p
  rw [h] at h1
  cases h1
  obtain ⟨rfl, rfl, rfl⟩ := h2 _ _ _ rfl
  have h3 := C14_limits c e p q hc hr ⟨_, _, _, h⟩ .stack
  simp only [wantedLimit] at h3
  have h4 := hk _ _ _ _ h
  rw [h3] at h4
  exact hf h4

/-- A short request with the default stack limit. -/
example : ∃ c, MainDoes false (fun _ => none) (c!"judger" :: sampleLine) (.runs c) ∧ FitsExec 8388608 c!"/usr/bin/judger" (c!"judger" :: sampleLine) [] ∧
    c.args.length ≤ 255 ∧ times .maxStack sampleItems = 0 ∧ FitsExec c.maxStack c.exePath c.args c.env := by
  obtain ⟨c, hc⟩ := sample_runs false (fun _ => none) c!"judger"
  have hf : FitsExec 8388608 c!"/usr/bin/judger" (c!"judger" :: sampleLine) [] :=
    ⟨by decide, by simp [sampleLine]⟩
  have hn : c.args.length ≤ 255 := by
    rw [(runs_inv (sample_scan false) hc).2.2.1, List.length_cons]
    decide
  exact ⟨c, hc, hf, hn, rfl, C131_default_partial _ _ _ _ _ _ _ _ c hf (by decide) hc hn (sample_scan false) rfl⟩

/-- `--exe_path=/bin/ls --max_stack=1` and a text given twice as an argument. -/
def tightLine (t : CStr) : List CStr := [c!"--exe_path=/bin/ls", c!"--max_stack=1", c!"--args=" ++ t, c!"--args=" ++ t]

def tightItems (t : CStr) : List Item :=
  [.opt .exePath (some c!"/bin/ls"), .opt .maxStack (some c!"1"), .opt .args (some t), .opt .args (some t)]

theorem tight_scan (posix : Bool) (t : CStr) : Scan posix (tightLine t) (tightItems t) :=
  .value c!"exe_path" c!"/bin/ls" .exePath _ _ (calls_full .exePath) (by decide)
    (.value c!"max_stack" c!"1" .maxStack _ _ (calls_full .maxStack) (by decide)
      (.value c!"args" t .args _ _ (calls_full .args) (by decide) (.value c!"args" t .args _ _ (calls_full .args) (by decide) .nil)))

theorem intText_1 : IntText c!"1" 1 := by
  have hb : Blank [] := by intro c hc; simp at hc
  exact ⟨[], [], [], c!"1", [], [], 1, 10, 1, 1, rfl, hb, hb, Or.inl ⟨rfl, rfl⟩, Or.inl ⟨rfl, rfl⟩, .one '1' 1 rfl (by decide), Or.inl ⟨rfl, rfl⟩, by decide⟩

theorem tight_fine {t : CStr} (ht : t ≠ []) : Fine (tightItems t) where
  noMistake := by simp [tightItems]
  filled := by
    intro o v h
    simp [tightItems] at h
    rcases h with ⟨_, rfl⟩ | ⟨_, rfl⟩ | ⟨_, rfl⟩
    · decide
    · decide
    · exact ht
  ints := by
    intro o v h hi
    simp [tightItems] at h
    rcases h with ⟨rfl, rfl⟩ | ⟨rfl, rfl⟩ | ⟨rfl, rfl⟩
    · simp [Opt.takes] at hi
    · exact ⟨1, Or.inl intText_1, by decide⟩
    · simp [Opt.takes] at hi
  often := by intro o; cases o <;> simp [tightItems, times, Opt.atMost]
  exe := by simp [tightItems, times]

/-- Two arguments of 70000 bytes reach the judger, but not the program when the stack limit is small. -/
theorem C131_witness : ∃ (ws : List CStr) (c : Config), FitsExec 8388608 c!"/usr/bin/judger" (c!"judger" :: ws) [] ∧
    MainDoes false (fun _ => none) (c!"judger" :: ws) (.runs c) ∧ ConfigOk c ∧ c.InRange ∧ ¬FitsExec c.maxStack c.exePath c.args c.env := by
  obtain ⟨t, ht⟩ : ∃ t : CStr, t.length = 70000 := ⟨List.replicate 70000 'y', List.length_replicate⟩
  have hne : t ≠ [] := by rintro rfl; simp at ht
  obtain ⟨c, hc⟩ := main_runs (junk := fun _ => none) (a := c!"judger") (tight_scan false t) (tight_fine hne) (by simp [tightItems, times]) (by simp [tightItems, times])
  obtain ⟨_, hm, ha, he⟩ := runs_inv (tight_scan false t) hc
  have d := C49_defaults _ _ _ _ _ c hc (tight_scan false t)
  have z : ∀ o : Opt, o ≠ .exePath → o ≠ .maxStack → o ≠ .args → times o (tightItems t) = 0 := by
    intro o; cases o <;> simp [tightItems, times]
  have hst : c.maxStack = 1 := by
    rcases hm.stack with ⟨s, h1, h2⟩ | ⟨h1, _⟩
    · have : s = c!"1" := by simpa [tightItems, given] using h1.symm
      subst this
      exact loose_unique (Or.inl intText_1) (by decide) h2
    · simp [tightItems, given] at h1
  have h1 := d.cpu (z _ (by simp) (by simp) (by simp))
  have h2 := d.real (z _ (by simp) (by simp) (by simp))
  have h3 := d.mem (z _ (by simp) (by simp) (by simp))
  have h4 := d.nproc (z _ (by simp) (by simp) (by simp))
  have h5 := d.out (z _ (by simp) (by simp) (by simp))
  have h6 := d.check (z _ (by simp) (by simp) (by simp))
  have h7 := d.uid (z _ (by simp) (by simp) (by simp))
  have h8 := d.gid (z _ (by simp) (by simp) (by simp))
  refine ⟨tightLine t, c, ⟨?_, ?_⟩, hc, ?_, ?_, ?_⟩
  · simp [execBytes, execSpace, textBytes, tightLine, ht]
    omega
  · simp [tightLine, ht]
  · simp [ConfigOk, LimitOk, h1, h2, h3, h4, h5, hst]
  · constructor <;> simp [h1, h2, h3, h4, h5, h6, h7, h8, hst] <;> decide
  · rintro ⟨h, _⟩
    have hg : given .args (tightItems t) = [t, t] := by simp [tightItems, given]
    rw [hst, ha, hg] at h
    simp [execBytes, execSpace, textBytes, ht] at h
    omega

/-- C131 is false of the code. -/
theorem C131_false : ¬C131_full := by
  intro h
  obtain ⟨ws, c, h1, h2, h3, _, h4⟩ := C131_witness
  exact h4 (h _ _ _ _ _ _ _ c h1 h2 h3)

end Judger
