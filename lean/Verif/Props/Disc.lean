import Verif.Props.Life
import Verif.Props.Family
import Verif.Props.Ledger
import Verif.Spec.Disc

/-! # C118: how much a judged program can store on disc -/

set_option autoImplicit false

namespace Judger

open Judger.Spec

/-- The files a process has open for writing. -/
def writableFiles (q : Proc) : List CStr :=
  q.fds.filterMap fun d => (d.bind fun i => q.ofds[i]?).bind fun f => if f.writable then some f.path else none

/-- The judger has no other file open for writing than its log and the standard streams. -/
def OnlyLog (c : Config) (p : Proc) : Prop :=
  ∀ fd i, 2 < fd → p.fds.get fd = some i → ∃ f, p.ofds[i]? = some f ∧ (f.writable = true → f.path = c.logPath)

/-- C118, the full claim: with all three streams configured and `max_output_size` given, the program and its descendants store at most that much for
the output and as much for the error output, and leave nothing else. -/
def C118_full : Prop :=
  ∀ (core : Nat) (c : Config) (e : ChildEnv) (p q : Proc) (size : CStr → Nat) (k : Desk) (fs : List CStr), Judging c q → Started c e p q → OnlyLog c p →
    c.inputPath.isSome → c.outputPath.isSome → c.errorPath.isSome → c.maxOutputSize ≠ -1 →
    Stores core ⟨[⟨q, writableFiles q⟩], size, 0⟩ k → fs.Nodup → ((grownBy size k.size fs + k.cores : Nat) : Int) ≤ 2 * c.maxOutputSize

theorem map_eraseIdx_hand (l : List Hand) (i : Nat) : (l.eraseIdx i).map Hand.proc = (l.map Hand.proc).eraseIdx i := by
  induction l generalizing i with
  | nil => rfl
  | cons a l ih => cases i <;> simp [ih]

theorem map_set_same {l : List Hand} {i : Nat} {x : Hand} (hx : l[i]? = some x) : (l.map Hand.proc).set i x.proc = l.map Hand.proc := by
  apply List.ext_getElem?
  intro j
  rw [List.getElem?_set]
  split
  · next hj =>
    subst hj
    split
    · simp [hx]
    · next hl =>
      refine absurd ?_ hl
      rw [List.length_map]
      exact (List.getElem?_eq_some_iff.1 hx).1
  · rfl

/-- What can happen at a desk can happen in a life. -/
theorem stores_life {core : Nat} {xs : List Hand} {size : CStr → Nat} {n : Nat} {k : Desk} (h : Stores core ⟨xs, size, n⟩ k) :
    Life ⟨xs.map Hand.proc, fun _ => 0⟩ ⟨k.hands.map Hand.proc, fun _ => 0⟩ := by
  induction h with
  | start => exact .start _
  | act _ i x p' hx ha ih =>
    have := Life.act ih i x.proc p' (by simp [hx]) ha
    simpa [List.map_set] using this
  | limit _ i caller x r v hc hx hv ha ih =>
    have := Life.limit ih i caller.proc x.proc r v (List.mem_map_of_mem hc) (by simp [hx]) hv ha
    simpa [List.map_set] using this
  | grows _ _ _ _ _ _ _ ih => exact ih
  | shrinks _ _ _ ih => exact ih
  | opens _ i x f r hx _ _ ih => simpa [List.map_set, map_set_same hx] using ih
  | forks _ x r hx _ _ ih =>
    have := Life.forks ih x.proc (List.mem_map_of_mem hx)
    simpa using this
  | exits _ i ih =>
    have := Life.exits ih i
    dsimp only at this
    rw [← map_eraseIdx_hand] at this
    exact this
  | dumps _ i n _ _ ih =>
    have := Life.exits ih i
    dsimp only at this
    rw [← map_eraseIdx_hand] at this
    exact this

/-- No file gets longer than the limit, or than it was. -/
theorem stores_size {core : Nat} {c : Config} {q : Proc} {files : List CStr} {size : CStr → Nat} {k : Desk} (h : Judging c q)
    (hn : c.seccompRuleName ≠ none) (ho : c.maxOutputSize ≠ -1) (hd : Stores core ⟨[⟨q, files⟩], size, 0⟩ k) :
    ∀ f, (k.size f : Int) ≤ max (size f : Int) c.maxOutputSize := by
  have hw : wantedLimit c .fsize = some c.maxOutputSize := by simp [wantedLimit, ho]
  induction hd with
  | start => intro f; dsimp only; omega
  | grows hl x f n hx _ hle ih =>
    intro g
    have h1 := ih g
    have h2 := ((life_confined h (judging_noNewPrivs h hn) (stores_life hl) x.proc (List.mem_map_of_mem hx)).1.wanted .fsize _ hw).1
    dsimp only
    split <;> omega
  | shrinks hl f n ih =>
    intro g
    have h1 := ih g
    dsimp only
    split <;> omega
  | _ => assumption

/-- The filter of `c_cpp` is among these. -/
def StrictAmong (exe : BitVec 64) (fs : List Filter) : Prop := cCppFilter exe ∈ fs

theorem act_strict {p p' : Proc} {exe : BitVec 64} (ha : Act p p') (h : StrictAmong exe p.filters) : StrictAmong exe p'.filters := by
  cases ha with
  | filters f => exact List.mem_cons_of_mem _ h
  | _ => exact h

/-- Under `c_cpp` nothing is opened for writing. -/
theorem strict_no_open {exe : BitVec 64} {fs : List Filter} {r : Req} (hf : StrictAmong exe fs) (ha : evalAll fs r = .allow) : ¬MayOpen r := by
  have hnat := allowed_native ha hf
  have hans := evalAll_allow ha _ hf
  rw [cCpp_eval _ hnat] at hans
  rintro (h | ⟨h1, h2⟩ | ⟨h1, h2⟩ | ⟨h1, h2, h3⟩)
  · rw [hnat] at h; cases h
  · simp [cCppAnswer, h1, readOnly, accessMode] at hans
    exact h2 hans
  · simp [cCppAnswer, h1, readOnly, accessMode] at hans
    exact h2 hans
  · have h4 := (cCppAnswer_allow hans).1
    simp only [storesNothing, List.mem_cons, List.not_mem_nil, or_false] at h3 h4
    omega

theorem strict_no_fork {exe : BitVec 64} {fs : List Filter} {r : Req} (hf : StrictAmong exe fs) (ha : evalAll fs r = .allow) :
    ¬(r.nr = 56 ∨ r.nr = 57 ∨ r.nr = 58 ∨ r.nr = 435) := cCpp_no_fork (.inl hf) ha

/-- Under `c_cpp` there is one process with the files it was given, or none; and only these files get longer. -/
theorem stores_alone {core : Nat} {q : Proc} {exe : BitVec 64} {files : List CStr} {size : CStr → Nat} {k : Desk} (hu : StrictAmong exe q.filters)
    (hd : Stores core ⟨[⟨q, files⟩], size, 0⟩ k) :
    ((∃ x, k.hands = [x] ∧ x.files = files ∧ StrictAmong exe x.proc.filters ∧ k.cores = 0) ∨ (k.hands = [] ∧ k.cores ≤ core)) ∧
    ∀ f, f ∉ files → k.size f ≤ size f := by
  induction hd with
  | start => exact ⟨.inl ⟨_, rfl, rfl, hu, rfl⟩, fun f _ => Nat.le_refl _⟩
  | act hl i x p' hx ha ih =>
    refine ⟨?_, ih.2⟩
    rcases ih.1 with ⟨y, hy, h1, h2, h3⟩ | ⟨he, _⟩
    · left
      rw [hy] at hx ⊢
      cases i with
      | zero =>
        simp only [List.getElem?_cons_zero, Option.some.injEq] at hx
        subst hx
        exact ⟨_, rfl, h1, act_strict ha h2, h3⟩
      | succ i => simp at hx
    · rw [he] at hx; simp at hx
  | limit hl i caller x r v hc hx hv ha ih =>
    refine ⟨?_, ih.2⟩
    rcases ih.1 with ⟨y, hy, h1, h2, h3⟩ | ⟨he, _⟩
    · left
      rw [hy] at hx ⊢
      cases i with
      | zero =>
        simp only [List.getElem?_cons_zero, Option.some.injEq] at hx
        subst hx
        exact ⟨_, rfl, h1, h2, h3⟩
      | succ i => simp at hx
    · rw [he] at hx; simp at hx
  | grows hl x f n hx hf hle ih =>
    refine ⟨ih.1, fun g hg => ?_⟩
    dsimp only
    split
    · next h =>
      subst h
      rcases ih.1 with ⟨y, hy, h1, _⟩ | ⟨he, _⟩
      · rw [hy, List.mem_singleton] at hx
        subst hx
        rw [h1] at hf
        exact absurd hf hg
      · rw [he] at hx; cases hx
    · exact ih.2 g hg
  | shrinks hl f n ih =>
    refine ⟨ih.1, fun g hg => ?_⟩
    have := ih.2 g hg
    dsimp only
    split <;> omega
  | opens hl i x f r hx hr ha ih =>
    rcases ih.1 with ⟨y, hy, h1, h2, h3⟩ | ⟨he, _⟩
    · have hx' := List.mem_of_getElem? hx
      rw [hy, List.mem_singleton] at hx'
      subst hx'
      exact absurd hr (strict_no_open h2 ha)
    · rw [he] at hx; simp at hx
  | forks hl x r hx hn ha ih =>
    rcases ih.1 with ⟨y, hy, h1, h2, h3⟩ | ⟨he, _⟩
    · rw [hy, List.mem_singleton] at hx
      subst hx
      exact absurd hn (strict_no_fork h2 ha)
    · rw [he] at hx; cases hx
  | exits hl i ih =>
    refine ⟨?_, ih.2⟩
    rcases ih.1 with ⟨y, hy, h1, h2, h3⟩ | ⟨he, hm⟩
    · cases i with
      | zero => right; exact ⟨by rw [hy]; rfl, by rw [h3]; exact Nat.zero_le _⟩
      | succ i => left; exact ⟨y, by rw [hy]; rfl, h1, h2, h3⟩
    · right; exact ⟨by rw [he]; rfl, hm⟩
  | dumps hl i n hi hn ih =>
    refine ⟨?_, ih.2⟩
    rcases ih.1 with ⟨y, hy, h1, h2, h3⟩ | ⟨he, hm⟩
    · cases i with
      | zero => right; exact ⟨by rw [hy]; rfl, by rw [h3]; simpa using hn⟩
      | succ i => rw [hy] at hi; simp at hi
    · rw [he] at hi; simp at hi

theorem length_le_of_nodup (names : List CStr) : ∀ l : List CStr, l.Nodup → (∀ f ∈ l, f ∈ names) → l.length ≤ names.length := by
  induction names with
  | nil =>
    intro l _ h
    cases l with
    | nil => exact Nat.le_refl _
    | cons a l => exact absurd (h a List.mem_cons_self) (by simp)
  | cons a ns ih =>
    intro l hl h
    have h1 := ih (l.erase a) (hl.erase a) fun f hf => by
      have h2 := (hl.mem_erase_iff).1 hf
      exact (List.mem_cons.1 (h f h2.2)).resolve_left h2.1
    have h2 := List.length_erase (a := a) (l := l)
    rw [List.length_cons]
    split at h2 <;> omega

/-- Growth of at most `b` in the files of a list, none elsewhere. -/
theorem grown_le (before after : CStr → Nat) (names : List CStr) (b : Nat) (h1 : ∀ f, after f ≤ before f + b) (h2 : ∀ f, f ∉ names → after f ≤ before f)
    (fs : List CStr) (hf : fs.Nodup) : grownBy before after fs ≤ names.length * b := by
  have h3 : grownBy before after fs ≤ (fs.filter (· ∈ names)).length * b := by
    clear hf
    induction fs with
    | nil => simp [grownBy]
    | cons a fs ih =>
      unfold grownBy at *
      rw [List.map_cons, List.sum_cons]
      by_cases ha : a ∈ names
      · rw [List.filter_cons_of_pos (by simpa using ha), List.length_cons, Nat.add_mul]
        have := h1 a
        omega
      · rw [List.filter_cons_of_neg (by simpa using ha)]
        have := h2 a ha
        omega
  have h4 := length_le_of_nodup names (fs.filter (· ∈ names)) (hf.filter _) fun f h => by simpa using (List.mem_filter.1 h).2
  exact Nat.le_trans h3 (Nat.mul_le_mul_right b h4)

/-- C118, under `c_cpp`, for whatever the caller left open: `max_output_size` for each file (of the list `names`) open for writing, and one core file.
Missing: the log, which the program inherits (`C118_witness_log`), core files (`C118_witness_core`), and the other rule sets and none
(`C118_witness_files`). -/
theorem C118_each_partial (core : Nat) (c : Config) (e : ChildEnv) (p q : Proc) (size : CStr → Nat) (k : Desk) (names fs : List CStr) (h : Judging c q)
    (hs : Started c e p q) (hn : c.seccompRuleName = some c!"c_cpp") (ho : c.maxOutputSize ≠ -1) (hnames : ∀ f ∈ writableFiles q, f ∈ names)
    (hd : Stores core ⟨[⟨q, writableFiles q⟩], size, 0⟩ k) (hf : fs.Nodup) :
    (grownBy size k.size fs : Int) ≤ names.length * c.maxOutputSize ∧ k.cores ≤ core := by
  have hprof := C23_profile_enforced c e p q hs
  have hu : StrictAmong e.exeAddr q.filters := by
    rw [hn] at hprof
    rcases hprof.2 with ⟨h1, h2⟩ | ⟨h1, h2⟩ | ⟨h1, h2⟩ | ⟨h1, h2⟩ | ⟨h1, h2⟩ <;>
      first
      | exact absurd h1 (by decide)
      | (unfold StrictAmong; rw [h2]; exact List.mem_cons_self)
  obtain ⟨h1, h2⟩ := stores_alone hu hd
  have h3 := stores_size h (by rw [hn]; simp) ho hd
  have hpos : 0 ≤ c.maxOutputSize := by
    rcases h.ok.2.2.2.2.1 with h' | h'
    · exact absurd h' ho
    · omega
  have h4 := grown_le size k.size names c.maxOutputSize.toNat (fun f => by have := h3 f; omega) (fun f hf' => h2 f fun hm => hf' (hnames f hm)) fs hf
  refine ⟨?_, ?_⟩
  · have h5 : ((names.length * c.maxOutputSize.toNat : Nat) : Int) = names.length * c.maxOutputSize := by
      rw [Int.natCast_mul, Int.toNat_of_nonneg hpos]
    omega
  · rcases h1 with ⟨_, _, _, _, h1⟩ | ⟨_, h1⟩
    · rw [h1]; exact Nat.zero_le _
    · exact h1

theorem mem_writableFiles {q : Proc} {path : CStr} (h : path ∈ writableFiles q) :
    ∃ fd i f, q.fds.get fd = some i ∧ q.ofds[i]? = some f ∧ f.writable = true ∧ f.path = path := by
  unfold writableFiles at h
  obtain ⟨d, hd, h⟩ := List.mem_filterMap.1 h
  obtain ⟨n, hn⟩ := List.getElem?_of_mem hd
  cases d with
  | none => cases h
  | some i =>
    cases hf : q.ofds[i]? with
    | none => simp [hf] at h
    | some f =>
      simp only [Option.bind_some, hf, Option.ite_none_right_eq_some, Option.some.injEq] at h
      exact ⟨n, i, f, by simp [FdTable.get, hn], hf, h.1, h.2⟩

/-- With all three streams configured, the program can write the output file, the error file and the log. -/
theorem started_writable {c : Config} {e : ChildEnv} {p q : Proc} {i o r : CStr} (hs : Started c e p q) (hl : OnlyLog c p) (hi : c.inputPath = some i)
    (ho : c.outputPath = some o) (hr : c.errorPath = some r) : ∀ f ∈ writableFiles q, f ∈ [o, r, c.logPath] := by
  intro path hp
  obtain ⟨fd, j, f, h1, h2, h3, rfl⟩ := mem_writableFiles hp
  obtain ⟨s0, s1, s2, _, _, _, _, hold⟩ := C20_streams c e p q hs
  obtain ⟨k0, _, a0, b0⟩ := s0 i hi
  obtain ⟨k1, _, a1, b1⟩ := s1 o ho
  obtain ⟨k2, _, a2, b2⟩ := s2 r hr
  have in0 : q.fds.get fd = q.fds.get 0 → f.path ∈ [o, r, c.logPath] := by
    intro h
    rw [h1, a0, Option.some.injEq] at h
    rw [← h, h2, Option.some.injEq] at b0
    rw [b0] at h3
    cases h3
  have in1 : q.fds.get fd = q.fds.get 1 → f.path ∈ [o, r, c.logPath] := by
    intro h
    rw [h1, a1, Option.some.injEq] at h
    rw [← h, h2, Option.some.injEq] at b1
    rw [b1]; simp
  have in2 : q.fds.get fd = q.fds.get 2 → f.path ∈ [o, r, c.logPath] := by
    intro h
    rw [h1, a2, Option.some.injEq] at h
    rw [← h, h2, Option.some.injEq] at b2
    rw [b2]; simp
  by_cases hfd : 2 < fd
  · rcases C22_inherited_partial c e p q hs fd hfd (by rw [h1]; rfl) with h | ⟨_, h⟩ | ⟨_, h⟩ | ⟨_, h⟩
    · obtain ⟨g, hg, hw⟩ := hl fd j hfd (by rw [← h, h1])
      rw [hold j (List.getElem?_eq_some_iff.1 hg).1, hg, Option.some.injEq] at h2
      subst h2
      rw [hw h3]; simp
    · exact in0 h
    · exact in1 h
    · exact in2 h
  · have : fd = 0 ∨ fd = 1 ∨ fd = 2 := by omega
    rcases this with rfl | rfl | rfl
    · exact in0 rfl
    · exact in1 rfl
    · exact in2 rfl

/-- C118, under `c_cpp`: at most three times `max_output_size`, and one core file. -/
theorem C118_c_cpp_partial (core : Nat) (c : Config) (e : ChildEnv) (p q : Proc) (size : CStr → Nat) (k : Desk) (fs : List CStr) (h : Judging c q)
    (hs : Started c e p q) (hl : OnlyLog c p) (hi : c.inputPath.isSome) (ho : c.outputPath.isSome) (hr : c.errorPath.isSome) (hm : c.maxOutputSize ≠ -1)
    (hn : c.seccompRuleName = some c!"c_cpp") (hd : Stores core ⟨[⟨q, writableFiles q⟩], size, 0⟩ k) (hf : fs.Nodup) :
    ((grownBy size k.size fs + k.cores : Nat) : Int) ≤ 3 * c.maxOutputSize + core := by
  obtain ⟨i, hi⟩ := Option.isSome_iff_exists.1 hi
  obtain ⟨o, ho⟩ := Option.isSome_iff_exists.1 ho
  obtain ⟨r, hr⟩ := Option.isSome_iff_exists.1 hr
  obtain ⟨h1, h2⟩ := C118_each_partial core c e p q size k [o, r, c.logPath] fs h hs hn hm (started_writable hs hl hi ho hr) hd hf
  simp only [List.length_cons, List.length_nil] at h1
  omega

theorem sample_onlyLog : OnlyLog sampleConfig sampleProc := by
  intro fd i h1 h2
  have : fd = 3 := by
    by_cases h : fd < 4
    · omega
    · have : sampleProc.fds.get fd = none := by
        have hl : sampleProc.fds.length = 4 := rfl
        simp [FdTable.get, List.getElem?_eq_none (by omega : sampleProc.fds.length ≤ fd)]
      rw [this] at h2; cases h2
  subst this
  cases h2
  exact ⟨_, rfl, fun _ => by decide⟩

/-- The sample: at most three mebibytes, without core files. -/
example (size : CStr → Nat) (k : Desk) (fs : List CStr)
    (hd : Stores 0 ⟨[⟨stateAtExec sampleConfig (sampleChild fun _ => false) sampleProc, writableFiles (stateAtExec sampleConfig (sampleChild fun _ => false) sampleProc)⟩], size, 0⟩ k) (hf : fs.Nodup) :
    grownBy size k.size fs + k.cores ≤ 3145728 := by
  have := C118_c_cpp_partial 0 _ _ _ _ size k fs judging_sample sample_started sample_onlyLog rfl rfl rfl (by decide) rfl hd hf
  have h1 : 3 * sampleConfig.maxOutputSize + ((0 : Nat) : Int) = 3145728 := by decide
  omega

/-- Under `c_cpp` the program fills the output file, the error file and the log. -/
theorem C118_witness_log : ∃ k, Stores 0 ⟨[⟨stateAtExec sampleConfig (sampleChild fun _ => false) sampleProc,
      writableFiles (stateAtExec sampleConfig (sampleChild fun _ => false) sampleProc)⟩], fun _ => 0, 0⟩ k ∧
    grownBy (fun _ => 0) k.size [c!"/out", c!"/err", c!"judger.log"] = 3145728 := by
  have hl : ((stateAtExec sampleConfig (sampleChild fun _ => false) sampleProc).limits .fsize).cur = 1048576 := by decide
  have h0 := Stores.start (core := 0) ⟨[⟨stateAtExec sampleConfig (sampleChild fun _ => false) sampleProc,
    writableFiles (stateAtExec sampleConfig (sampleChild fun _ => false) sampleProc)⟩], fun _ => 0, 0⟩
  have h1 := Stores.grows h0 _ c!"/out" 1048576 (List.mem_singleton.2 rfl) (by decide) (by dsimp only; rw [hl]; decide)
  have h2 := Stores.grows h1 _ c!"/err" 1048576 (List.mem_singleton.2 rfl) (by decide) (by dsimp only; rw [hl]; decide)
  have h3 := Stores.grows h2 _ c!"judger.log" 1048576 (List.mem_singleton.2 rfl) (by decide) (by dsimp only; rw [hl]; decide)
  exact ⟨_, h3, by decide +kernel⟩

/-- A program that crashes leaves a core file, however long the caller's limit lets it be. -/
theorem C118_witness_core (core : Nat) (q : Proc) (size : CStr → Nat) :
    Stores core ⟨[⟨q, writableFiles q⟩], size, 0⟩ ⟨[], size, core⟩ := by
  have := Stores.dumps (core := core) (.start ⟨[⟨q, writableFiles q⟩], size, 0⟩) 0 core (Nat.zero_lt_one) (Nat.le_refl _)
  simpa using this

/-- A name of this length. -/
def nameOf (n : Nat) : CStr := List.replicate (n + 1) 'x'

theorem nameOf_inj {m n : Nat} (h : nameOf m = nameOf n) : m = n := by
  have := congrArg List.length h
  simpa [nameOf] using this

theorem many_files {core : Nat} {q : Proc} {r : Req} (hr : MayOpen r) (ha : evalAll q.filters r = .allow) (b : Nat)
    (hb : (b : Int) ≤ (q.limits .fsize).cur) (n : Nat) : ∃ k files, Stores core ⟨[⟨q, writableFiles q⟩], fun _ => 0, 0⟩ k ∧ k.hands = [⟨q, files⟩] ∧
      ∀ f, k.size f = if f ∈ (List.range n).map nameOf then b else 0 := by
  induction n with
  | zero => exact ⟨_, _, .start _, rfl, fun f => by simp⟩
  | succ n ih =>
    obtain ⟨k, files, h, hk, hz⟩ := ih
    have h1 := Stores.opens h 0 ⟨q, files⟩ (nameOf n) r (by rw [hk]; rfl) hr ha
    have h2 := Stores.grows h1 ⟨q, nameOf n :: files⟩ (nameOf n) b (by rw [hk]; exact List.mem_singleton.2 rfl) List.mem_cons_self hb
    refine ⟨_, nameOf n :: files, h2, by simp [hk], fun f => ?_⟩
    dsimp only
    rw [hz]
    simp only [List.range_succ, List.map_append, List.mem_append]
    by_cases hf : f = nameOf n
    · subst hf
      have : nameOf n ∉ (List.range n).map nameOf := by
        intro hm
        obtain ⟨m, hm, he⟩ := List.mem_map.1 hm
        rw [nameOf_inj he] at hm
        simp at hm
      simp [this]
    · simp [hf]

/-- Under `c_cpp_file_io`, `general`, `golang`, `node`, and without a rule set: as many files as it likes, each as long as the limit. -/
theorem C118_witness_files (name : Option CStr) (hn : ∀ n, name = some n → n ∈ [c!"c_cpp_file_io", c!"general", c!"golang", c!"node"]) :
    ∃ q, Started { sampleConfig with seccompRuleName := name } (sampleChild fun _ => false) sampleProc q ∧
      ∀ n, ∃ k fs, Stores 0 ⟨[⟨q, writableFiles q⟩], fun _ => 0, 0⟩ k ∧ fs.Nodup ∧ grownBy (fun _ => 0) k.size fs = n * 1048576 := by
  obtain ⟨q, hs, _⟩ := log_start name (fun n h => by
    have := hn n h
    simp only [List.mem_cons, List.not_mem_nil, or_false] at this
    rcases this with rfl | rfl | rfl | rfl <;> simp [profileNames])
  have hf := C23_profile_enforced _ _ _ _ hs
  have ha : ∃ r, MayOpen r ∧ evalAll q.filters r = .allow := by
    cases name with
    | none =>
      have h1 := hf.1
      rw [h1]
      exact ⟨Req.mk' 257 [0, 0x1000, 1, 0], .inr (.inr (.inl ⟨rfl, by decide⟩)), by decide⟩
    | some n =>
      have := hn n rfl
      simp only [List.mem_cons, List.not_mem_nil, or_false] at this
      rcases this with rfl | rfl | rfl | rfl <;>
        rcases hf.2 with ⟨h1, h2⟩ | ⟨h1, h2⟩ | ⟨h1, h2⟩ | ⟨h1, h2⟩ | ⟨h1, h2⟩ <;>
        first
        | exact absurd h1 (by decide)
        | (rw [h2]; exact ⟨Req.mk' 257 [0, 0x1000, 1, 0], .inr (.inr (.inl ⟨rfl, by decide⟩)), by decide⟩)
        | (rw [h2]; exact ⟨Req.mk' 437 [0, 0x1000, 0x2000, 24], .inr (.inr (.inr ⟨by decide, by decide, by decide⟩)), by decide⟩)
  obtain ⟨r, hr, ha⟩ := ha
  have hl := C14_limits { sampleConfig with seccompRuleName := name } _ _ _ sampleConfig_ok (by
    obtain ⟨h1, h2, h3, h4, h5, h6, h7, h8, h9⟩ := sampleConfig_range
    exact ⟨h1, h2, h3, h4, h5, h6, h7, h8, h9⟩) hs .fsize
  simp only [wantedLimit, sampleConfig] at hl
  simp at hl
  refine ⟨q, hs, fun n => ?_⟩
  obtain ⟨k, files, h, _, hz⟩ := many_files (core := 0) hr ha 1048576 (by rw [hl]; decide) n
  have hnd : ((List.range n).map nameOf).Nodup :=
    List.Pairwise.map _ (fun a b hne h => hne (nameOf_inj h)) List.nodup_range
  refine ⟨k, _, h, hnd, ?_⟩
  have : ∀ l : List CStr, (∀ f ∈ l, f ∈ (List.range n).map nameOf) → grownBy (fun _ => 0) k.size l = l.length * 1048576 := by
    intro l
    induction l with
    | nil => intro _; rfl
    | cons a l ih =>
      intro hl
      have h1 := ih fun f hf => hl f (List.mem_cons_of_mem _ hf)
      have h2 := hz a
      rw [if_pos (hl a List.mem_cons_self)] at h2
      unfold grownBy at *
      rw [List.map_cons, List.sum_cons, h1, h2, List.length_cons]
      dsimp only
      omega
  rw [this _ fun f hf => hf]
  simp

/-- C118 is false of the code. -/
theorem C118_false : ¬C118_full := by
  intro h
  obtain ⟨k, hk, hg⟩ := C118_witness_log
  have := h 0 _ _ _ _ _ k [c!"/out", c!"/err", c!"judger.log"] judging_sample sample_started sample_onlyLog rfl rfl rfl (by decide) hk (by decide)
  rw [hg] at this
  have h1 : 2 * sampleConfig.maxOutputSize = 2097152 := by decide
  omega

end Judger
