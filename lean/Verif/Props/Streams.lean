import Verif.Props.Child
import Verif.Spec.Streams

/-!
# C91: the files of the standard streams hold what the program wrote and give it what they held

Every theorem quantifies over every configuration, inherited process state, contents of the files, naming of the files, and every sequence of
reads and writes of the program.
-/

set_option autoImplicit false

namespace Judger

open Judger.Spec

/-! ## The descriptions that `child_process` makes -/

/-- Every description made since `p` belongs to a configured path. -/
theorem made_for_config {c : Config} {e : ChildEnv} {p q : Proc} (h : Started c e p q) :
    ∀ o ∈ q.ofds.drop p.ofds.length,
      (c.inputPath = some o.path ∧ o.truncated = false) ∨
      ((c.outputPath = some o.path ∨ c.errorPath = some o.path) ∧ o.truncated = true) := by
  obtain ⟨rfl, _⟩ := started_inv h
  rw [stateAtExec_eq, (late_frame c e (redirections c p)).2.2.1]
  unfold redirections
  simp only []
  generalize hp0 : ({ p with limits := limitsAfter c p.limits } : Proc) = p0
  have e2 : p.ofds = p0.ofds := by rw [← hp0]
  rw [e2]
  clear hp0 e2
  have h1 : (afterInput c p0).2.ofds = p0.ofds ∨
      ∃ path, c.inputPath = some path ∧ (afterInput c p0).2.ofds = p0.ofds ++ [⟨path, true, false, false⟩] := by
    unfold afterInput
    cases c.inputPath with
    | none => exact .inl rfl
    | some path => exact .inr ⟨path, rfl, redirected_ofds p0 path false 0⟩
  generalize (afterInput c p0).2 = p1 at h1
  have h2 : (afterOutput c p1).2.ofds = p1.ofds ∨
      ∃ path, c.outputPath = some path ∧ (afterOutput c p1).2.ofds = p1.ofds ++ [⟨path, false, true, true⟩] := by
    unfold afterOutput
    cases c.outputPath with
    | none => exact .inl rfl
    | some path => exact .inr ⟨path, rfl, redirected_ofds p1 path true 1⟩
  generalize afterOutput c p1 = a at h2
  obtain ⟨o, p2⟩ := a
  simp only at h2 ⊢
  have h3 : (afterError c o p2).2.ofds = p2.ofds ∨
      ∃ path, c.errorPath = some path ∧ (afterError c o p2).2.ofds = p2.ofds ++ [⟨path, false, true, true⟩] := by
    unfold afterError
    cases c.errorPath with
    | none => exact .inl rfl
    | some path =>
      by_cases hs : c.outputPath = some path
      · exact .inl (by simp [hs])
      · refine .inr ⟨path, rfl, ?_⟩
        simp only [hs, if_false]
        exact redirected_ofds p2 path true 2
  intro x hx
  rcases h1 with h1 | ⟨a, ha, h1⟩ <;> rcases h2 with h2 | ⟨b, hb, h2⟩ <;> rcases h3 with h3 | ⟨d, hd, h3⟩ <;>
    rw [h3, h2, h1] at hx <;> simp at hx <;> grind

theorem emptied_other {names : CStr → Nat} {content : Nat → CStr} {l : List OpenFile} {f : Nat}
    (h : ∀ o ∈ l, o.truncated = true → names o.path ≠ f) : emptied names content l f = content f := by
  unfold emptied
  induction l generalizing content with
  | nil => rfl
  | cons o l ih =>
    rw [List.foldl_cons, ih fun x hx => h x (by simp [hx])]
    cases ht : o.truncated with
    | false => simp
    | true =>
      have := h o (by simp) ht
      simp [Ne.symm this]

theorem emptied_empty {names : CStr → Nat} {content : Nat → CStr} {l : List OpenFile} {f : Nat}
    (h : content f = [] ∨ ∃ o ∈ l, o.truncated = true ∧ names o.path = f) : emptied names content l f = [] := by
  unfold emptied
  induction l generalizing content with
  | nil => rcases h with h | ⟨o, ho, _⟩; · exact h
           · cases ho
  | cons o l ih =>
    rw [List.foldl_cons]
    apply ih
    rcases h with h | ⟨x, hx, hx1, hx2⟩
    · left
      split
      · simp only []; split <;> simp [h]
      · exact h
    · rcases List.mem_cons.1 hx with rfl | hx
      · left; simp [hx1, hx2]
      · exact .inr ⟨x, hx, hx1, hx2⟩

theorem made_mem {p q : Proc} {fd k : Nat} {f : OpenFile} (h1 : onFile q fd = some (k, f)) (h2 : p.ofds.length ≤ k) :
    f ∈ q.ofds.drop p.ofds.length := by
  unfold onFile at h1
  split at h1
  · cases h1
  · rename_i x _
    cases hx : q.ofds[x]? with
    | none => simp [hx] at h1
    | some y =>
      simp only [hx, Option.map_some, Option.some.injEq, Prod.mk.injEq] at h1
      obtain ⟨rfl, rfl⟩ := h1
      rw [List.mem_iff_getElem?]
      refine ⟨x - p.ofds.length, ?_⟩
      rw [List.getElem?_drop, ← hx]
      congr 1
      omega

theorem splice_end (s bs : CStr) : splice s s.length bs = s ++ bs := by
  simp [splice]

/-- What the streams are when all three are configured. -/
structure Wired (q : Proc) (old : Nat) (pi po pe : CStr) (i o e : Nat) : Prop where
  stdin : onFile q 0 = some (i, ⟨pi, true, false, false⟩)
  stdout : onFile q 1 = some (o, ⟨po, false, true, true⟩)
  stderr : onFile q 2 = some (e, ⟨pe, false, true, true⟩)
  fresh : old ≤ i ∧ old ≤ o ∧ old ≤ e
  apart : i ≠ o ∧ i ≠ e ∧ (o = e ↔ po = pe)

theorem wired {c : Config} {e : ChildEnv} {p q : Proc} {pi po pe : CStr} (h : Started c e p q) (hi : c.inputPath = some pi)
    (ho : c.outputPath = some po) (he : c.errorPath = some pe) :
    ∃ i o r, Wired q p.ofds.length pi po pe i o r := by
  obtain ⟨s1, s2, s3, s4, -⟩ := C20_streams c e p q h
  obtain ⟨i, i1, i2, i3⟩ := s1 pi hi
  obtain ⟨o, o1, o2, o3⟩ := s2 po ho
  obtain ⟨r, r1, r2, r3⟩ := s3 pe he
  have s4 := s4 po pe ho he
  refine ⟨i, o, r, ⟨?_, ?_, ?_, ⟨i1, o1, r1⟩, ?_, ?_, ?_⟩⟩
  · simp [onFile, i2, i3]
  · simp [onFile, o2, o3]
  · simp [onFile, r2, r3]
  · rintro rfl; rw [i3] at o3; cases o3
  · rintro rfl; rw [i3] at r3; cases r3
  · rw [o2, r2] at s4
    simpa using s4

/-! ## The claim -/

/-- What the files hold and what the program has read, after the calls `l`. -/
def C91_claim (names : CStr → Nat) (content : Nat → CStr) (pi po pe : CStr) (t : Store) (l : List Io) : Prop :=
  (po ≠ pe → t.content (names po) = written 1 l ∧ t.content (names pe) = written 2 l) ∧
  (po = pe → t.content (names po) = writtenEither 1 2 l) ∧
  t.got = (content (names pi)).take (asked l)

/-- C91, the full claim: whatever the program reads and writes through its standard streams, the file at `output_path` ends up with what was
written to standard output, the file at `error_path` with what was written to standard error (one file with both, in order, when the paths are
equal), and what it reads is what the file at `input_path` held, from its beginning. -/
def C91_full : Prop :=
  ∀ (c : Config) (e : ChildEnv) (p q : Proc) (pi po pe : CStr) (names : CStr → Nat) (content : Nat → CStr) (pos : Nat → Nat) (l : List Io),
    Started c e p q → c.inputPath = some pi → c.outputPath = some po → c.errorPath = some pe → Standard l →
    C91_claim names content pi po pe (play names q (atStart names content pos p.ofds.length q) l) l

/-- Two different paths name two different files. -/
def ApartFiles (names : CStr → Nat) (pi po pe : CStr) : Prop :=
  names pi ≠ names po ∧ names pi ≠ names pe ∧ (po ≠ pe → names po ≠ names pe)

/-- C91, the part that holds: the input file is not also the output or error file, and output and error go to one file only under one path.
Missing: several names of one file. -/
theorem C91_streams_partial (c : Config) (e : ChildEnv) (p q : Proc) (pi po pe : CStr) (names : CStr → Nat) (content : Nat → CStr)
    (pos : Nat → Nat) (l : List Io) (h : Started c e p q) (hi : c.inputPath = some pi) (ho : c.outputPath = some po)
    (he : c.errorPath = some pe) (hl : Standard l) (ha : ApartFiles names pi po pe) :
    C91_claim names content pi po pe (play names q (atStart names content pos p.ofds.length q) l) l := by
  obtain ⟨i, o, r, hw⟩ := wired h hi ho he
  have made := made_for_config h
  obtain ⟨a1, a2, a3⟩ := ha
  have mem := fun fd k f => made_mem (p := p) (q := q) (fd := fd) (k := k) (f := f)
  -- the state at the start
  have c1 : (atStart names content pos p.ofds.length q).content (names po) = [] :=
    emptied_empty (.inr ⟨_, mem 1 _ _ hw.stdout hw.fresh.2.1, rfl, rfl⟩)
  have c2 : (atStart names content pos p.ofds.length q).content (names pe) = [] :=
    emptied_empty (.inr ⟨_, mem 2 _ _ hw.stderr hw.fresh.2.2, rfl, rfl⟩)
  have c3 : (atStart names content pos p.ofds.length q).content (names pi) = content (names pi) := by
    refine emptied_other fun x hx ht => ?_
    rcases made x hx with ⟨-, h2⟩ | ⟨h1 | h1, -⟩
    · rw [ht] at h2; cases h2
    · rw [ho] at h1; cases h1; exact Ne.symm a1
    · rw [he] at h1; cases h1; exact Ne.symm a2
  have d : ∀ k, p.ofds.length ≤ k → (atStart names content pos p.ofds.length q).pos k = 0 := by
    intro k hk; simp [atStart, hk]
  have c4 := d i hw.fresh.1
  have c5 := d o hw.fresh.2.1
  have c6 := d r hw.fresh.2.2
  have c7 : (atStart names content pos p.ofds.length q).got = [] := rfl
  generalize atStart names content pos p.ofds.length q = s0 at c1 c2 c3 c4 c5 c6 c7 ⊢
  obtain ⟨b1, b2, b3⟩ := hw.apart
  -- reading
  have reading : ∀ (l : List Io) (s : Store) (g : CStr), Standard l → s.content (names pi) = content (names pi) →
      s.pos i = s.got.length → content (names pi) = s.got ++ g →
      (play names q s l).got = s.got ++ g.take (asked l) := by
    intro l
    induction l with
    | nil => intro s g _ _ _ _; simp [play, asked]
    | cons x l ih =>
      intro s g hl h1 h2 h3
      have hl' : Standard l := fun fd bs hb => hl fd bs (by simp [hb])
      cases x with
      | read n =>
        have hs : ioStep names q s (.read n) =
            { s with got := s.got ++ g.take n, pos := fun j => if j = i then s.pos i + (g.take n).length else s.pos j } := by
          simp [ioStep, hw.stdin, h1, h2, h3]
        simp only [play, List.foldl_cons, hs]
        refine (ih { s with got := s.got ++ g.take n, pos := fun j => if j = i then s.pos i + (g.take n).length else s.pos j } (g.drop n)
          hl' h1 (by simp [h2]) (by simp [h3])).trans ?_
        simp only [asked, List.map_cons, List.sum_cons, List.append_assoc]
        rw [List.take_add]
      | write fd bs =>
        have hfd := hl fd bs (by simp)
        have hs : ∃ s', ioStep names q s (.write fd bs) = s' ∧ s'.got = s.got ∧ s'.pos i = s.pos i ∧
            s'.content (names pi) = s.content (names pi) := by
          rcases hfd with rfl | rfl
          · exact ⟨_, rfl, by simp [ioStep, hw.stdout], by simp [ioStep, hw.stdout, b1], by simp [ioStep, hw.stdout, a1]⟩
          · exact ⟨_, rfl, by simp [ioStep, hw.stderr], by simp [ioStep, hw.stderr, b2], by simp [ioStep, hw.stderr, a2]⟩
        obtain ⟨s', e1, e2, e3, e4⟩ := hs
        simp only [play, List.foldl_cons, e1]
        refine (ih s' g hl' (by rw [e4, h1]) (by rw [e2, e3, h2]) (by rw [e2, h3])).trans ?_
        rw [e2]
        simp [asked]
  -- writing
  have writing : ∀ (l : List Io) (s : Store), Standard l → po ≠ pe → s.pos o = (s.content (names po)).length →
      s.pos r = (s.content (names pe)).length →
      (play names q s l).content (names po) = s.content (names po) ++ written 1 l ∧
      (play names q s l).content (names pe) = s.content (names pe) ++ written 2 l := by
    intro l
    induction l with
    | nil => intro s _ _ _ _; simp [play, written]
    | cons x l ih =>
      intro s hl hne h1 h2
      have hl' : Standard l := fun fd bs hb => hl fd bs (by simp [hb])
      have n1 := a3 hne
      have n2 : o ≠ r := fun hx => hne (b3.1 hx)
      cases x with
      | read n =>
        have hs : ∃ s', ioStep names q s (.read n) = s' ∧ s'.content = s.content ∧ s'.pos o = s.pos o ∧ s'.pos r = s.pos r :=
          ⟨_, rfl, by simp [ioStep, hw.stdin], by simp [ioStep, hw.stdin, Ne.symm b1], by simp [ioStep, hw.stdin, Ne.symm b2]⟩
        obtain ⟨s', e1, e2, e3, e4⟩ := hs
        simp only [play, List.foldl_cons, e1]
        have := ih s' hl' hne (by rw [e2, e3, h1]) (by rw [e2, e4, h2])
        rw [e2] at this
        simpa [play, written] using this
      | write fd bs =>
        rcases hl fd bs (by simp) with rfl | rfl
        · have hs : ∃ s', ioStep names q s (.write 1 bs) = s' ∧ s'.content (names po) = s.content (names po) ++ bs ∧
              s'.content (names pe) = s.content (names pe) ∧ s'.pos o = s.pos o + bs.length ∧ s'.pos r = s.pos r :=
            ⟨_, rfl, by simp [ioStep, hw.stdout, h1, splice_end], by simp [ioStep, hw.stdout, Ne.symm n1],
              by simp [ioStep, hw.stdout], by simp [ioStep, hw.stdout, Ne.symm n2]⟩
          obtain ⟨s', e1, e2, e3, e4, e5⟩ := hs
          simp only [play, List.foldl_cons, e1]
          have := ih s' hl' hne (by rw [e2, e4, h1]; simp) (by rw [e3, e5, h2])
          rw [e2, e3] at this
          simpa [play, written] using this
        · have hs : ∃ s', ioStep names q s (.write 2 bs) = s' ∧ s'.content (names pe) = s.content (names pe) ++ bs ∧
              s'.content (names po) = s.content (names po) ∧ s'.pos r = s.pos r + bs.length ∧ s'.pos o = s.pos o :=
            ⟨_, rfl, by simp [ioStep, hw.stderr, h2, splice_end], by simp [ioStep, hw.stderr, n1],
              by simp [ioStep, hw.stderr], by simp [ioStep, hw.stderr, n2]⟩
          obtain ⟨s', e1, e2, e3, e4, e5⟩ := hs
          simp only [play, List.foldl_cons, e1]
          have := ih s' hl' hne (by rw [e3, e5, h1]) (by rw [e2, e4, h2]; simp)
          rw [e2, e3] at this
          simpa [play, written] using this
  -- writing to one file
  have both : ∀ (l : List Io) (s : Store), Standard l → po = pe → s.pos o = (s.content (names po)).length →
      (play names q s l).content (names po) = s.content (names po) ++ writtenEither 1 2 l := by
    intro l
    induction l with
    | nil => intro s _ _ _; simp [play, writtenEither]
    | cons x l ih =>
      intro s hl heq h1
      have hl' : Standard l := fun fd bs hb => hl fd bs (by simp [hb])
      have n2 : o = r := b3.2 heq
      cases x with
      | read n =>
        have hs : ∃ s', ioStep names q s (.read n) = s' ∧ s'.content = s.content ∧ s'.pos o = s.pos o :=
          ⟨_, rfl, by simp [ioStep, hw.stdin], by simp [ioStep, hw.stdin, Ne.symm b1]⟩
        obtain ⟨s', e1, e2, e3⟩ := hs
        simp only [play, List.foldl_cons, e1]
        have := ih s' hl' heq (by rw [e2, e3, h1])
        rw [e2] at this
        simpa [play, writtenEither] using this
      | write fd bs =>
        have hs : ∃ s', ioStep names q s (.write fd bs) = s' ∧ s'.content (names po) = s.content (names po) ++ bs ∧
            s'.pos o = s.pos o + bs.length := by
          rcases hl fd bs (by simp) with rfl | rfl
          · exact ⟨_, rfl, by simp [ioStep, hw.stdout, h1, splice_end], by simp [ioStep, hw.stdout]⟩
          · exact ⟨_, rfl, by simp [ioStep, hw.stderr, ← heq, ← n2, h1, splice_end], by simp [ioStep, hw.stderr, ← n2]⟩
        obtain ⟨s', e1, e2, e3⟩ := hs
        simp only [play, List.foldl_cons, e1]
        have := ih s' hl' heq (by rw [e2, e3, h1]; simp)
        rw [e2] at this
        have hfd := hl fd bs (by simp)
        simpa [play, writtenEither, hfd] using this
  refine ⟨fun hne => ?_, fun heq => ?_, ?_⟩
  · have := writing l s0 hl hne (by rw [c5, c1]; rfl) (by rw [c6, c2]; rfl)
    rw [c1, c2] at this
    simpa using this
  · have := both l s0 hl heq (by rw [c5, c1]; rfl)
    rw [c1] at this
    simpa using this
  · have := reading l s0 (content (names pi)) hl c3 (by rw [c4, c7]; rfl) (by rw [c7]; rfl)
    rw [c7] at this
    simpa using this

/-- C91 is false of the code: when `/out` and `/err` are two names of one file, the program's standard error overwrites its standard
output. -/
theorem C91_false : ¬ C91_full := by
  intro h
  have := h _ _ _ _ c!"/in" c!"/out" c!"/err" (fun s => if s = c!"/in" then 1 else 2) (fun _ => []) (fun _ => 0)
    [.write 1 c!"ab", .write 2 c!"c"] sample_started rfl rfl rfl (by intro fd bs hb; simp at hb; omega)
  exact absurd (this.1 (by decide)).1 (by decide)

/-- What the file of that witness holds: one byte of the three is lost. -/
theorem C91_witness :
    (play (fun s => if s = c!"/in" then 1 else 2) (stateAtExec sampleConfig (sampleChild fun _ => false) sampleProc)
      (atStart (fun s => if s = c!"/in" then 1 else 2) (fun _ => []) (fun _ => 0) sampleProc.ofds.length
        (stateAtExec sampleConfig (sampleChild fun _ => false) sampleProc)) [.write 1 c!"ab", .write 2 c!"c"]).content 2 = c!"cb" := by
  decide

/-- Another way to lose data: when the output (or error) file is also the input file, it has been emptied before the program can read it. -/
theorem C91_input_lost (c : Config) (e : ChildEnv) (p q : Proc) (pi po pe : CStr) (names : CStr → Nat) (content : Nat → CStr)
    (pos : Nat → Nat) (l : List Io) (h : Started c e p q) (hi : c.inputPath = some pi) (ho : c.outputPath = some po)
    (he : c.errorPath = some pe) (hs : names pi = names po ∨ names pi = names pe) (hl : ∀ x ∈ l, ∃ n, x = .read n) :
    (play names q (atStart names content pos p.ofds.length q) l).got = [] := by
  obtain ⟨i, o, r, hw⟩ := wired h hi ho he
  have mem := fun fd k f => made_mem (p := p) (q := q) (fd := fd) (k := k) (f := f)
  have c1 : (atStart names content pos p.ofds.length q).content (names pi) = [] := by
    rcases hs with hs | hs
    · exact emptied_empty (.inr ⟨_, mem 1 _ _ hw.stdout hw.fresh.2.1, rfl, hs.symm⟩)
    · exact emptied_empty (.inr ⟨_, mem 2 _ _ hw.stderr hw.fresh.2.2, rfl, hs.symm⟩)
  have c2 : (atStart names content pos p.ofds.length q).got = [] := rfl
  generalize atStart names content pos p.ofds.length q = s at c1 c2 ⊢
  induction l generalizing s with
  | nil => exact c2
  | cons x l ih =>
    obtain ⟨n, rfl⟩ := hl x (by simp)
    exact ih (fun y hy => hl y (by simp [hy])) (ioStep names q s (.read n)) (by simp [ioStep, hw.stdin, c1]) (by simp [ioStep, hw.stdin, c1, c2])

/-- C91, settled: for all contents and all uses of the standard streams the claim holds exactly if different paths name different files and the input file is neither
of the others. -/
theorem C91_exact (c : Config) (e : ChildEnv) (p q : Proc) (pi po pe : CStr) (names : CStr → Nat) (h : Started c e p q) (hi : c.inputPath = some pi)
    (ho : c.outputPath = some po) (he : c.errorPath = some pe) :
    (∀ content pos l, Standard l → C91_claim names content pi po pe (play names q (atStart names content pos p.ofds.length q) l) l) ↔
      ApartFiles names pi po pe := by
  constructor
  · intro hall
    have input : ¬(names pi = names po ∨ names pi = names pe) := fun hs => by
      have h1 := (hall (fun _ => c!"x") (fun _ => 0) [.read 1] (by intro fd bs hb; simp at hb)).2.2
      rw [C91_input_lost c e p q pi po pe names _ _ _ h hi ho he hs (by simp)] at h1
      exact absurd h1 (by simp [asked])
    refine ⟨fun hs => input (.inl hs), fun hs => input (.inr hs), fun hne hs => ?_⟩
    have h1 := (hall (fun _ => []) (fun _ => 0) [.write 1 c!"a", .write 2 c!"b"] (by intro fd bs hb; simp at hb; omega)).1 hne
    rw [← hs, h1.1] at h1
    exact absurd h1.2 (by decide)
  · exact fun ha content pos l hl => C91_streams_partial c e p q pi po pe names content pos l h hi ho he hl ha

/-- Both sides for the sample: three files, and a link from one output to the other. -/
example : (∀ content pos l, Standard l → C91_claim (fun s => s.length) content c!"/in" c!"/oute" c!"/erro1" (play (fun s => s.length)
      (stateAtExec { sampleConfig with outputPath := some c!"/oute", errorPath := some c!"/erro1" } (sampleChild fun _ => false) sampleProc)
      (atStart (fun s => s.length) content pos sampleProc.ofds.length
        (stateAtExec { sampleConfig with outputPath := some c!"/oute", errorPath := some c!"/erro1" } (sampleChild fun _ => false) sampleProc)) l) l) ∧
    ¬∀ content pos l, Standard l → C91_claim (fun s => s.length) content c!"/in" c!"/out" c!"/err" (play (fun s => s.length)
      (stateAtExec sampleConfig (sampleChild fun _ => false) sampleProc)
      (atStart (fun s => s.length) content pos sampleProc.ofds.length (stateAtExec sampleConfig (sampleChild fun _ => false) sampleProc)) l) l := by
  constructor
  · exact (C91_exact { sampleConfig with outputPath := some c!"/oute", errorPath := some c!"/erro1" } (sampleChild fun _ => false) sampleProc _ c!"/in" c!"/oute"
      c!"/erro1" (fun s => s.length) ⟨_, _, _, rfl⟩ rfl rfl rfl).2 ⟨by decide, by decide, by decide⟩
  · rw [C91_exact _ _ _ _ _ _ _ _ sample_started rfl rfl rfl]
    exact fun h => h.2.2 (by decide) rfl

/-- The sample run with three files: what is read and written is as claimed. -/
example : ∃ (q : Proc) (names : CStr → Nat) (content : Nat → CStr) (l : List Io),
    Started sampleConfig (sampleChild fun _ => false) sampleProc q ∧ Standard l ∧ ApartFiles names c!"/in" c!"/out" c!"/err" ∧
    content (names c!"/out") = c!"old" ∧
    (play names q (atStart names content (fun _ => 0) sampleProc.ofds.length q) l).content (names c!"/out") = c!"abc" ∧
    (play names q (atStart names content (fun _ => 0) sampleProc.ofds.length q) l).got = c!"1 2" :=
  ⟨_, fun s => if s = c!"/in" then 1 else if s = c!"/out" then 2 else 3, fun f => if f = 2 then c!"old" else c!"1 2",
    [.read 2, .write 1 c!"ab", .write 2 c!"!", .read 10, .write 1 c!"c"], sample_started,
    (by intro fd bs hb; simp at hb; omega), ⟨by decide, by decide, by decide⟩, (by decide), (by decide), (by decide)⟩

/-- The two hypotheses of `C91_input_lost` can be met. -/
example : (play (fun _ => 1) (stateAtExec sampleConfig (sampleChild fun _ => false) sampleProc)
    (atStart (fun _ => 1) (fun _ => c!"data") (fun _ => 0) sampleProc.ofds.length
      (stateAtExec sampleConfig (sampleChild fun _ => false) sampleProc)) [.read 4]).got = [] :=
  C91_input_lost _ _ _ _ c!"/in" c!"/out" c!"/err" _ _ _ _ sample_started rfl rfl rfl (.inl rfl) (by simp)

end Judger
