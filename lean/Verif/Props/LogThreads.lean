import Verif.Model.LogThreads
import Verif.Props.Logger

/-! # C123: the entries of threads that judge at the same time -/

set_option autoImplicit false

namespace Judger

open Judger.Spec

/-- What a call is to append. -/
def LogCall.entry (c : LogCall) : CStr := logEntry c.level c.file c.line c.date c.msg

/-- A call with a level of logger.h, a C int, a date of strftime and an entry that the buffer takes. -/
def LogCall.Fits (c : LogCall) : Prop := c.level ≤ 3 ∧ IsInt c.line ∧ c.date.length ≤ 98 ∧ c.entry.length ≤ 8191

/-- The calls in progress. -/
def TPc.call : TPc → Option LogCall
  | .idle => none
  | .dated c | .lined c | .told c | .formatted c _ => some c

/-- C123, the full claim: the log gets the entry of each call, whole and exactly, in whatever order threads take their steps. -/
def C123_full : Prop :=
  ∀ (cs : List LogCall) (s : TLog), TRuns false cs s → (∀ c ∈ cs, c.Fits) →
    s.appended = (cs.map LogCall.entry).flatten.map some

/-! ## One thread at a time -/

/-- What the static buffers hold while thread `i` alone is in `log_write`. -/
def TPc.Holds (s : TLog) : TPc → Prop
  | .idle => True
  | .dated c => s.datetime = snprintfStr 99 c.date
  | .lined c => s.datetime = snprintfStr 99 c.date ∧ s.lineStr = snprintfStr 19 (showInt c.line)
  | .told c => s.datetime = snprintfStr 99 c.date ∧ s.lineStr = snprintfStr 19 (showInt c.line) ∧ s.logBuffer = snprintfStr logBufferSize c.msg
  | .formatted c n =>
      n = (logLine c.level c.file c.line c.date c.msg).length ∧
      ∃ rest, s.buffer = snprintfCells logBufferSize (logLine c.level c.file c.line c.date c.msg) ++ rest

theorem alone_holds {cs : List LogCall} {s : TLog} (h : TRuns true cs s) :
    (∀ i j, i ≠ j → s.pc i = .idle ∨ s.pc j = .idle) ∧ (∀ i, TPc.Holds s (s.pc i)) := by
  induction h with
  | init => exact ⟨fun _ _ _ => .inl rfl, fun _ => trivial⟩
  | inner i _ hs ha ih =>
    rename_i cs0 s0 s1 _
    have ha : ∀ j, j ≠ i → s0.pc j = .idle := by
      intro j hj
      by_cases hi : s0.pc i = .idle
      · exact ha rfl hi j hj
      · exact (ih.1 j i hj).resolve_right hi
    have hal : ∀ p, (∀ a b, a ≠ b → (if a = i then p else s0.pc a) = TPc.idle ∨ (if b = i then p else s0.pc b) = TPc.idle) := by
      intro p a b hab
      by_cases h1 : a = i
      · exact .inr (by rw [if_neg (by omega)]; exact ha b (by omega))
      · exact .inl (by rw [if_neg h1]; exact ha a h1)
    have hi := ih.2 i
    cases hs with
    | date c h =>
      refine ⟨hal _, fun k => ?_⟩
      simp only [TLog.setPc]
      split
      · simp [TPc.Holds]
      · rename_i hk; rw [ha k hk]; trivial
    | line c h =>
      refine ⟨hal _, fun k => ?_⟩
      rw [h] at hi
      simp only [TLog.setPc]
      split
      · simp only [TPc.Holds] at hi ⊢; exact ⟨hi, trivial⟩
      · rename_i hk; rw [ha k hk]; trivial
    | tell c h =>
      refine ⟨hal _, fun k => ?_⟩
      rw [h] at hi
      simp only [TLog.setPc]
      split
      · simp only [TPc.Holds] at hi ⊢; exact ⟨hi.1, hi.2, trivial⟩
      · rename_i hk; rw [ha k hk]; trivial
    | format c h =>
      refine ⟨hal _, fun k => ?_⟩
      rw [h] at hi
      simp only [TLog.setPc]
      split
      · simp only [TPc.Holds] at hi ⊢
        have ht : ∀ s : TLog, s.datetime = snprintfStr 99 c.date → s.lineStr = snprintfStr 19 (showInt c.line) →
            s.logBuffer = snprintfStr logBufferSize c.msg → s.text c = logLine c.level c.file c.line c.date c.msg := by
          intro s h1 h2 h3
          simp only [TLog.text, logLine, h1, h2, h3]
        rw [ht _ hi.1 hi.2.1 hi.2.2]
        exact ⟨rfl, _, rfl⟩
      · rename_i hk; rw [ha k hk]; trivial
  | wrote i c _ hs ih =>
    cases hs with
    | write _ n h =>
      refine ⟨fun a b hab => ?_, fun k => ?_⟩
      · simp only [TLog.setPc]
        by_cases h1 : a = i
        · exact .inl (if_pos h1)
        · by_cases h2 : b = i
          · exact .inr (if_pos h2)
          · rw [if_neg h1, if_neg h2]; exact ih.1 a b hab
      · simp only [TLog.setPc]
        split
        · trivial
        · rename_i s hk
          rcases ih.1 k i hk with h1 | h1
          · rw [h1]; trivial
          · rw [h] at h1; cases h1

/-- The cells at the beginning of the buffer, when the text fits. -/
theorem bytesOf_overlay (text : CStr) (rest : List Cell) (h : text.length ≤ 8191) :
    bytesOf (snprintfCells logBufferSize text ++ rest) text.length = text.map some := by
  have ht : text.take (logBufferSize - 1) = text := List.take_of_length_le (by simpa [logBufferSize] using h)
  unfold bytesOf snprintfCells
  rw [ht]
  have hz : text.length - (List.map some text ++ [some '\x00'] ++ rest).length = 0 := by
    simp only [List.length_append, List.length_map, List.length_singleton]; omega
  rw [hz]
  simp

/-- C123, the part that holds: while threads enter `log_write` one at a time, the log gets the entry of each call, whole and exactly.  Missing: threads
that are inside at the same time. -/
theorem C123_one_at_a_time_partial (cs : List LogCall) (s : TLog) (h : TRuns true cs s) (hf : ∀ c ∈ cs, c.Fits) :
    s.appended = (cs.map LogCall.entry).flatten.map some := by
  induction h with
  | init => rfl
  | inner i _ hs _ ih => cases hs <;> exact ih hf
  | wrote i c h hs ih =>
    have ih := ih (fun d hd => hf d (List.mem_append_left _ hd))
    have hc := hf c (List.mem_append_right _ (List.mem_singleton_self c))
    cases hs with
    | write _ n hp =>
      have hh := (alone_holds h).2 i
      rw [hp] at hh
      obtain ⟨h1, rest, h2⟩ := hh
      have hm : c.msg.length ≤ 8191 := by
        have := hc.2.2.2
        simp only [LogCall.entry, logEntry, List.length_append] at this
        omega
      have hl : logLine c.level c.file c.line c.date c.msg = c.entry := logLine_eq _ _ _ _ _ hc.1 hc.2.1 hc.2.2.1 hm
      rw [hl] at h1 h2
      show _ ++ bytesOf _ _ = _
      rw [ih, h1, h2, bytesOf_overlay _ _ hc.2.2.2]
      simp

/-! ## What holds in any case -/

/-- What the static buffers hold, whoever wrote it: all of their bytes are known, and every text is that of some call. -/
structure Bounded (n : Nat) (s : TLog) : Prop where
  date : s.datetime.length ≤ 98
  line : s.lineStr.length ≤ 18
  msg : s.logBuffer.length ≤ n
  size : s.buffer.length = 8192
  known : ∀ x ∈ s.buffer, x ≠ none
  file : ∀ i c, (s.pc i).call = some c → c.file.length + n ≤ 8000 ∧ c.msg.length ≤ n
  count : ∀ i c k, s.pc i = .formatted c k → k ≤ 8191
  log : ∀ x ∈ s.appended, x ≠ none
  inside : s.overRead = false

theorem levelNote_short (l : Nat) : (levelNote l).length ≤ 7 := by
  unfold levelNote
  split <;> decide

theorem text_short {n : Nat} {s : TLog} (h : Bounded n s) (c : LogCall) (hc : c.file.length + n ≤ 8000) : (s.text c).length ≤ 8191 := by
  have h1 := levelNote_short c.level
  have h2 := h.date
  have h3 := h.line
  have h4 := h.msg
  simp only [TLog.text, List.length_append, List.length_cons, List.length_nil]
  omega

theorem overlay_size (text : CStr) (b : List Cell) (hb : b.length = 8192) (ht : text.length ≤ 8191) :
    (overlay (snprintfCells logBufferSize text) b).length = 8192 := by
  have h1 : (snprintfCells logBufferSize text).length = text.length + 1 := by
    simp only [snprintfCells, logBufferSize, List.length_append, List.length_map, List.length_take, List.length_singleton]
    omega
  simp only [overlay, List.length_append, List.length_drop, h1, hb]
  omega

theorem setPc_call {s : TLog} {i : Nat} {p : TPc} {P : Nat → LogCall → Prop} (h : ∀ j c, (s.pc j).call = some c → P j c)
    (hp : ∀ c, p.call = some c → P i c) : ∀ j c, ((s.setPc i p).pc j).call = some c → P j c := by
  intro j c
  simp only [TLog.setPc]
  split
  · rename_i hj; subst hj; exact hp c
  · exact h j c

theorem setPc_count {s : TLog} {i : Nat} {p : TPc} {m : Nat} (h : ∀ j c k, s.pc j = .formatted c k → k ≤ m)
    (hp : ∀ c k, p = .formatted c k → k ≤ m) : ∀ j c k, (s.setPc i p).pc j = .formatted c k → k ≤ m := by
  intro j c k
  simp only [TLog.setPc]
  split
  · exact hp c k
  · exact h j c k

theorem bounded_step {n : Nat} {i : Nat} {s s' : TLog} {d : TDo} (h : Bounded n s) (hs : TStep i s d s')
    (hb : ∀ c ∈ s'.begun, c.file.length + n ≤ 8000 ∧ c.msg.length ≤ n) : Bounded n s' := by
  cases hs with
  | date c hp =>
    have hc := hb c (List.mem_cons_self ..)
    refine { h with date := ?_, file := setPc_call h.file (fun d hd => ?_), count := setPc_count h.count (fun d k hd => by cases hd) }
    · simp only [snprintfStr, List.length_take]; omega
    · cases hd; exact hc
  | line c hp =>
    refine { h with line := ?_, file := setPc_call h.file (fun d hd => ?_), count := setPc_count h.count (fun d k hd => by cases hd) }
    · simp only [snprintfStr, List.length_take]; omega
    · cases hd; exact h.file i c (by rw [hp]; rfl)
  | tell c hp =>
    have hc := h.file i c (by rw [hp]; rfl)
    refine { h with msg := ?_, file := setPc_call h.file (fun d hd => ?_), count := setPc_count h.count (fun d k hd => by cases hd) }
    · simp only [snprintfStr, List.length_take]; omega
    · cases hd; exact hc
  | format c hp =>
    have hc := h.file i c (by rw [hp]; rfl)
    have ht := text_short h c hc.1
    refine { h with size := overlay_size _ _ h.size ht, known := ?_, file := setPc_call h.file (fun d hd => ?_),
                    count := setPc_count h.count (fun d k hd => ?_) }
    · intro x hx
      simp only [overlay, snprintfCells, List.mem_append, List.mem_map, List.mem_singleton] at hx
      rcases hx with (⟨y, _, rfl⟩ | rfl) | hx
      · exact nofun
      · exact nofun
      · exact h.known x (List.mem_of_mem_drop hx)
    · cases hd; exact hc
    · cases hd; exact ht
  | write c k hp =>
    have hk := h.count i c k hp
    refine { h with file := setPc_call h.file (fun d hd => by cases hd), count := setPc_count h.count (fun d k hd => by cases hd), log := ?_,
                    inside := ?_ }
    · intro x hx
      rcases List.mem_append.mp hx with hx | hx
      · exact h.log x hx
      · simp only [bytesOf, h.size, show k - 8192 = 0 by omega, List.replicate_zero, List.append_nil] at hx
        exact h.known x (List.mem_of_mem_take hx)
    · have : ¬ logBufferSize < k := by unfold logBufferSize; omega
      simp only [h.inside, this, decide_false, Bool.or_false]

theorem begun_mono {i : Nat} {s s' : TLog} {d : TDo} (hs : TStep i s d s') {c : LogCall} (h : c ∈ s.begun) : c ∈ s'.begun := by
  cases hs <;> first | exact h | exact List.mem_cons_of_mem _ h

theorem bounded {n : Nat} {alone : Bool} {cs : List LogCall} {s : TLog} (h : TRuns alone cs s)
    (hb : ∀ c ∈ s.begun, c.file.length + n ≤ 8000 ∧ c.msg.length ≤ n) : Bounded n s := by
  induction h with
  | init =>
    refine ⟨Nat.zero_le _, Nat.zero_le _, Nat.zero_le _, ?_, ?_, nofun, nofun, nofun, rfl⟩
    · exact List.length_replicate
    · intro x hx
      rw [List.eq_of_mem_replicate hx]
      exact nofun
  | inner i _ hs _ ih => exact bounded_step (ih fun c hc => hb c (begun_mono hs hc)) hs hb
  | wrote i c _ hs ih => exact bounded_step (ih fun c hc => hb c (begun_mono hs hc)) hs hb

/-- C123, what holds of threads inside `log_write` at the same time: if no message is longer than `n` characters and no source file name longer than
8000 - `n`, nothing beyond the buffer is read, and nothing but characters that were formatted, or zeros, comes into the log. -/
theorem C123_inside_partial (n : Nat) (cs : List LogCall) (s : TLog) (h : TRuns false cs s)
    (hb : ∀ c ∈ s.begun, c.file.length + n ≤ 8000 ∧ c.msg.length ≤ n) : s.overRead = false ∧ ∀ x ∈ s.appended, x ≠ none :=
  ⟨(bounded h hb).inside, (bounded h hb).log⟩

/-! ## Two threads at once -/

/-- runner.c:39: the caller is not root. -/
def callRoot : LogCall := ⟨0, c!"runner.c", 39, c!"2026-01-01 00:00:00", c!"Error: ROOT_REQUIRED"⟩

/-- runner.c:49: the configuration is not valid. -/
def callConfig : LogCall := ⟨0, c!"runner.c", 49, c!"2026-01-01 00:00:00", c!"Error: INVALID_CONFIG"⟩


/-- A call in one thread, up to the write. -/
theorem prepares {alone : Bool} {cs : List LogCall} {s : TLog} (i : Nat) (c : LogCall) (h : TRuns alone cs s) (hp : s.pc i = .idle)
    (ha : alone = true → ∀ j, j ≠ i → s.pc j = .idle) :
    ∃ s', TRuns alone cs s' ∧ s'.pc = (s.setPc i (.formatted c (logLine c.level c.file c.line c.date c.msg).length)).pc ∧
      s'.buffer = overlay (snprintfCells logBufferSize (logLine c.level c.file c.line c.date c.msg)) s.buffer ∧ s'.appended = s.appended ∧
      s'.begun = c :: s.begun := by
  have hi : ∀ (s : TLog) p, (s.setPc i p).pc i = p := fun s p => by simp [TLog.setPc]
  have h1 := TRuns.inner i h (.date s c hp) (fun h _ => ha h)
  have h2 := TRuns.inner i h1 (.line _ c (hi _ _)) (fun _ h => nomatch (hi _ _).symm.trans h)
  have h3 := TRuns.inner i h2 (.tell _ c (hi _ _)) (fun _ h => nomatch (hi _ _).symm.trans h)
  have h4 := TRuns.inner i h3 (.format _ c (hi _ _)) (fun _ h => nomatch (hi _ _).symm.trans h)
  refine ⟨_, h4, ?_, rfl, rfl, rfl⟩
  funext j
  by_cases hj : j = i <;> simp [TLog.setPc, hj, TLog.text, logLine]

/-- Two threads: one of a caller that is not root, one with a wrong configuration.  The second formats its entry while the first waits for the lock: the
log then says "INVALID_CONFIG" twice, the first time without the end of the line, and "ROOT_REQUIRED" nowhere. -/
theorem C123_witness :
    ∃ s, TRuns false [callRoot, callConfig] s ∧ s.appended = (callConfig.entry.take 62 ++ callConfig.entry).map some := by
  obtain ⟨s1, h1, p1, b1, a1, _⟩ := prepares (alone := false) 0 callRoot .init rfl nofun
  obtain ⟨s2, h2, p2, b2, a2, _⟩ := prepares 1 callConfig h1 (by rw [p1]; rfl) nofun
  have q0 : s2.pc 0 = .formatted callRoot (logLine 0 c!"runner.c" 39 c!"2026-01-01 00:00:00" c!"Error: ROOT_REQUIRED").length := by
    rw [p2]
    simp only [TLog.setPc]
    rw [if_neg (by decide), p1]
    rfl
  have h3 := TRuns.wrote 0 callRoot h2 (.write s2 callRoot _ q0)
  have q1 : s2.pc 1 = .formatted callConfig (logLine 0 c!"runner.c" 49 c!"2026-01-01 00:00:00" c!"Error: INVALID_CONFIG").length := by
    rw [p2]; rfl
  have h4 := TRuns.wrote 1 callConfig h3 (.write _ callConfig _ (by
    show (if (1 : Nat) = 0 then TPc.idle else s2.pc 1) = _
    rw [if_neg (by decide)]
    exact q1))
  refine ⟨_, h4, ?_⟩
  show s2.appended ++ bytesOf s2.buffer _ ++ bytesOf s2.buffer _ = _
  rw [a2, a1, b2, b1]
  decide +kernel

/-- C123 is false. -/
theorem C123_false : ¬ C123_full := by
  intro h
  obtain ⟨s, h1, h2⟩ := C123_witness
  have h3 := h _ s h1 (by
    intro c hc
    rcases List.mem_cons.mp hc with rfl | hc
    · exact ⟨by decide, by decide, by decide, by decide +kernel⟩
    · rw [List.mem_singleton.mp hc]
      exact ⟨by decide, by decide, by decide, by decide +kernel⟩)
  rw [h2] at h3
  revert h3
  decide +kernel

/-- The same two calls, one after the other: both entries are in the log. -/
example : ∃ s, TRuns true [callRoot, callConfig] s ∧ s.appended = ([callRoot, callConfig].map LogCall.entry).flatten.map some := by
  obtain ⟨s1, h1, p1, -⟩ := prepares (alone := true) 0 callRoot .init rfl (fun _ _ _ => rfl)
  have h2 := TRuns.wrote 0 callRoot h1 (.write s1 callRoot _ (by rw [p1]; rfl))
  have hidle : ∀ j, (s1.setPc 0 .idle).pc j = .idle := by
    intro j
    simp only [TLog.setPc, p1]
    by_cases hj : j = 0 <;> simp [hj, TLog.init]
  obtain ⟨s3, h3, p3, -⟩ := prepares 1 callConfig h2 (hidle 1) (fun _ j _ => hidle j)
  have g5 := TRuns.wrote 1 callConfig h3 (.write s3 callConfig _ (by rw [p3]; rfl))
  refine ⟨_, g5, C123_one_at_a_time_partial _ _ g5 ?_⟩
  intro c hc
  rcases List.mem_cons.mp hc with rfl | hc
  · exact ⟨by decide, by decide, by decide, by decide +kernel⟩
  · rw [List.mem_singleton.mp hc]
    exact ⟨by decide, by decide, by decide, by decide +kernel⟩

/-- The calls of `C123_witness` meet the bounds of `C123_inside_partial`. -/
example : ∀ c ∈ [callRoot, callConfig], c.file.length + 1000 ≤ 8000 ∧ c.msg.length ≤ 1000 := by decide

end Judger
