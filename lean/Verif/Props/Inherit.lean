import Verif.Props.Child
import Verif.Spec.Inherit

/-! # C125: a program starts in surroundings that the request settles -/

set_option autoImplicit false

namespace Judger

open Judger.Spec

/-- C125 as users would have it: two judgings with the same request give the program the same surroundings, whoever calls. -/
def C125_full : Prop :=
  ∀ (c : Config) (e : ChildEnv) (p p' q q' : Proc), ConfigOk c → c.InRange → WellFormed p → WellFormed p' → p.uid.e = 0 → p'.uid.e = 0 →
    Started c e p q → Started c e p' q' → surroundings q = surroundings q'

/-! ## Descriptors -/

theorem lowest_congr {t u : FdTable} (h : ∀ n, (t.get n).isSome = (u.get n).isSome) : t.lowest = u.lowest := by
  apply Nat.le_antisymm
  · apply FdTable.lowest_le
    have := h u.lowest
    rw [FdTable.get_lowest] at this
    simpa using this
  · apply FdTable.lowest_le
    have := h t.lowest
    rw [FdTable.get_lowest] at this
    simpa using this.symm

theorem behind_isSome {p : Proc} (h : WellFormed p) (n : Nat) : (behind p n).isSome = (p.fds.get n).isSome := by
  unfold behind
  cases hk : p.fds.get n with
  | none => rfl
  | some k => simp [h n k hk]

theorem lowest_alike {p p' : Proc} (h : WellFormed p) (h' : WellFormed p') (hb : behind p = behind p') : p.fds.lowest = p'.fds.lowest :=
  lowest_congr fun n => by rw [← behind_isSome h, ← behind_isSome h', hb]

theorem redirected_wellFormed {p : Proc} (h : WellFormed p) (path : CStr) (w : Bool) (n : Nat) : WellFormed (redirected p path w n) := by
  intro m k hk
  rw [redirected_fds] at hk
  rw [redirected_ofds, List.length_append, List.length_singleton]
  split at hk
  · cases hk; omega
  · have := h m k hk; omega

theorem redirected_behind {p : Proc} (h : WellFormed p) (path : CStr) (w : Bool) (n m : Nat) :
    behind (redirected p path w n) m = if m = n ∨ m = p.fds.lowest then some ⟨path, !w, w, w⟩ else behind p m := by
  unfold behind
  rw [redirected_fds, redirected_ofds]
  split
  · simp
  · cases hk : p.fds.get m with
    | none => rfl
    | some k => simp [List.getElem?_append_left (h m k hk)]

theorem redirected_alike {p p' : Proc} (h : WellFormed p) (h' : WellFormed p') (hb : behind p = behind p') (path : CStr) (w : Bool) (n : Nat) :
    behind (redirected p path w n) = behind (redirected p' path w n) := by
  funext m
  rw [redirected_behind h, redirected_behind h', lowest_alike h h' hb, hb]

theorem set_alike {p p' : Proc} (hb : behind p = behind p') (a b : Nat) :
    behind { p with fds := p.fds.set a (p.fds.get b) } = behind { p' with fds := p'.fds.set a (p'.fds.get b) } := by
  funext m
  have h1 := congrFun hb m
  have h2 := congrFun hb b
  unfold behind at *
  simp only [FdTable.get_set]
  split <;> assumption

theorem redirections_alike (c : Config) {p p' : Proc} (h : WellFormed p) (h' : WellFormed p') (hb : behind p = behind p') :
    behind (redirections c p) = behind (redirections c p') := by
  have i1 : WellFormed (afterInput c { p with limits := limitsAfter c p.limits }).2 ∧ WellFormed (afterInput c { p' with limits := limitsAfter c p'.limits }).2 ∧
      behind (afterInput c { p with limits := limitsAfter c p.limits }).2 = behind (afterInput c { p' with limits := limitsAfter c p'.limits }).2 := by
    unfold afterInput
    split
    · exact ⟨h, h', hb⟩
    · exact ⟨redirected_wellFormed (p := { p with limits := _ }) h _ _ _, redirected_wellFormed (p := { p' with limits := _ }) h' _ _ _,
        redirected_alike (p := { p with limits := _ }) (p' := { p' with limits := _ }) h h' hb _ _ _⟩
  unfold redirections
  generalize (afterInput c { p with limits := limitsAfter c p.limits }).2 = a at *
  generalize (afterInput c { p' with limits := limitsAfter c p'.limits }).2 = a' at *
  obtain ⟨w1, w2, hi⟩ := i1
  have o1 : WellFormed (afterOutput c a).2 ∧ WellFormed (afterOutput c a').2 ∧ behind (afterOutput c a).2 = behind (afterOutput c a').2 ∧
      (afterOutput c a).1.elim 0 (·.fd) = (afterOutput c a').1.elim 0 (·.fd) := by
    unfold afterOutput
    split
    · exact ⟨w1, w2, hi, rfl⟩
    · exact ⟨redirected_wellFormed w1 _ _ _, redirected_wellFormed w2 _ _ _, redirected_alike w1 w2 hi _ _ _, lowest_alike w1 w2 hi⟩
  dsimp only
  generalize afterOutput c a = b at *
  generalize afterOutput c a' = b' at *
  obtain ⟨w1, w2, hi, hf⟩ := o1
  unfold afterError
  split
  · exact hi
  · split
    · dsimp only
      rw [hf]
      exact set_alike hi _ _
    · exact redirected_alike w1 w2 hi _ _ _

/-! ## The rest -/

theorem late_signals (c : Config) (e : ChildEnv) (p : Proc) : (stateAtExec c e p).ignored = p.ignored ∧ (stateAtExec c e p).blocked = p.blocked := by
  have hi : ∀ p, (afterInput c p).2.ignored = p.ignored ∧ (afterInput c p).2.blocked = p.blocked := by
    intro p; unfold afterInput; split <;> exact ⟨rfl, rfl⟩
  have ho : ∀ p, (afterOutput c p).2.ignored = p.ignored ∧ (afterOutput c p).2.blocked = p.blocked := by
    intro p; unfold afterOutput; split <;> exact ⟨rfl, rfl⟩
  have he : ∀ o p, (afterError c o p).2.ignored = p.ignored ∧ (afterError c o p).2.blocked = p.blocked := by
    intro o p; unfold afterError; split
    · exact ⟨rfl, rfl⟩
    · split <;> exact ⟨rfl, rfl⟩
  have hg : ∀ p, (afterGid c p).ignored = p.ignored ∧ (afterGid c p).blocked = p.blocked := by
    intro p; unfold afterGid; split <;> exact ⟨rfl, rfl⟩
  have hu : ∀ p, (afterUid c p).ignored = p.ignored ∧ (afterUid c p).blocked = p.blocked := by
    intro p; unfold afterUid; split
    · exact ⟨rfl, rfl⟩
    · split <;> exact ⟨rfl, rfl⟩
  have hs : ∀ p, (afterSeccomp c e p).ignored = p.ignored ∧ (afterSeccomp c e p).blocked = p.blocked := by
    intro p; unfold afterSeccomp; split
    · exact ⟨rfl, rfl⟩
    · split <;> exact ⟨rfl, rfl⟩
  simp only [stateAtExec, hi, ho, he, hg, hu, hs, and_self]

theorem filters_alike (c : Config) (e : ChildEnv) {p p' : Proc} (h : evalAll p.filters = evalAll p'.filters) :
    evalAll (afterSeccomp c e p).filters = evalAll (afterSeccomp c e p').filters := by
  unfold afterSeccomp
  split
  · exact h
  · split
    · exact h
    · funext r
      simp only [evalAll, h]

/-- C125, the part that holds: callers that differ only in what the request settles (limits it sets, ids it gives) give the program the same
surroundings.  Missing: callers that differ in something else; see `C125_shows_partial` and the witnesses. -/
theorem C125_alike_partial (c : Config) (e : ChildEnv) (p p' q q' : Proc) (hc : ConfigOk c) (hr : c.InRange) (hw : WellFormed p) (hw' : WellFormed p')
    (ha : AlikeFor c p p') (h : Started c e p q) (h' : Started c e p' q') : surroundings q = surroundings q' := by
  have l : q.limits = q'.limits := by
    funext r
    have h1 := C14_limits c e p q hc hr h r
    have h2 := C14_limits c e p' q' hc hr h' r
    split at h1
    · rename_i hv; rw [hv] at h2; rw [h1, h2]
    · rename_i hv; rw [hv] at h2; rw [h1, h2, ha.limits r hv]
  have i1 := C18_each_id c e p q ha.root.1 h
  have i2 := C18_each_id c e p' q' ha.root.2 h'
  have u : q.uid = q'.uid := by
    rw [i1.1, i2.1]; split
    · exact ha.uid ‹_›
    · rfl
  have g : q.gid = q'.gid := by
    rw [i1.2.1, i2.2.1]; split
    · exact (ha.gid ‹_›).1
    · rfl
  have gs : q.groups = q'.groups := by
    rw [i1.2.2, i2.2.2]; split
    · exact (ha.gid ‹_›).2
    · rfl
  have nnp : q.noNewPrivs = q'.noNewPrivs := by
    have h1 := C23_profile_enforced c e p q h
    have h2 := C23_profile_enforced c e p' q' h'
    split at h1
    · rename_i hn; rw [hn] at h2; rw [h1.2, h2.2, ha.noNewPrivs hn]
    · rename_i hn; rw [hn] at h2; rw [h1.1, h2.1]
  obtain ⟨rfl, -⟩ := started_inv h
  obtain ⟨rfl, -⟩ := started_inv h'
  have b : behind (stateAtExec c e p) = behind (stateAtExec c e p') := by
    have hb : ∀ x, behind (afterSeccomp c e (afterUid c (afterGid c x))) = behind x := by
      intro x; funext n; unfold behind; rw [(late_frame c e x).2.1, (late_frame c e x).2.2.1]
    rw [stateAtExec_eq, stateAtExec_eq, hb, hb, redirections_alike c hw hw' ha.open_]
  have f : evalAll (stateAtExec c e p).filters = evalAll (stateAtExec c e p').filters := by
    rw [stateAtExec_eq, stateAtExec_eq]
    apply filters_alike
    rw [(ids_filters c _).1, (ids_filters c _).1, (redirections_frame c p).2.2.2.2.1, (redirections_frame c p').2.2.2.2.1, ha.answers]
  simp only [surroundings, l, u, g, gs, b, nnp, f, (late_signals c e p).1, (late_signals c e p).2, (late_signals c e p').1, (late_signals c e p').2,
    ha.ignored, ha.blocked]

/-- C125, the other way round: a difference between callers in a limit that the request does not set, an id that it does not give, or in the signals
they ignore or block is there for the program to see. -/
theorem C125_shows_partial (c : Config) (e : ChildEnv) (p p' q q' : Proc) (hc : ConfigOk c) (hr : c.InRange) (hp : p.uid.e = 0) (hp' : p'.uid.e = 0)
    (h : Started c e p q) (h' : Started c e p' q') (hs : surroundings q = surroundings q') :
    (∀ r, wantedLimit c r = none → p.limits r = p'.limits r) ∧ (c.uid = keepId → p.uid = p'.uid) ∧
    (c.gid = keepId → p.gid = p'.gid ∧ p.groups = p'.groups) ∧ (c.seccompRuleName = none → p.noNewPrivs = p'.noNewPrivs) ∧
    p.ignored = p'.ignored ∧ p.blocked = p'.blocked := by
  have i1 := C18_each_id c e p q hp h
  have i2 := C18_each_id c e p' q' hp' h'
  have hu : q.uid = q'.uid := congrArg (·.uid) hs
  have hg : q.gid = q'.gid := congrArg (·.gid) hs
  have hgs : q.groups = q'.groups := congrArg (·.groups) hs
  refine ⟨fun r hv => ?_, fun hk => ?_, fun hk => ⟨?_, ?_⟩, fun hn => ?_, ?_⟩
  · have h1 := C14_limits c e p q hc hr h r
    have h2 := C14_limits c e p' q' hc hr h' r
    rw [hv] at h1 h2
    have h3 : q.limits r = q'.limits r := congrFun (congrArg (·.limits) hs) r
    rw [← h1, ← h2, h3]
  · rw [i1.1, i2.1, if_pos hk, if_pos hk] at hu; exact hu
  · rw [i1.2.1, i2.2.1, if_pos hk, if_pos hk] at hg; exact hg
  · rw [i1.2.2, i2.2.2, if_pos hk, if_pos hk] at hgs; exact hgs
  · have h1 := C23_profile_enforced c e p q h
    have h2 := C23_profile_enforced c e p' q' h'
    rw [hn] at h1 h2
    have h3 : q.noNewPrivs = q'.noNewPrivs := congrArg (·.noNewPrivs) hs
    rw [← h1.2, ← h2.2, h3]
  · have h3 : q.ignored = q'.ignored := congrArg (·.ignored) hs
    have h4 : q.blocked = q'.blocked := congrArg (·.blocked) hs
    obtain ⟨rfl, -⟩ := started_inv h
    obtain ⟨rfl, -⟩ := started_inv h'
    rw [(late_signals c e p).1, (late_signals c e p').1] at h3
    rw [(late_signals c e p).2, (late_signals c e p').2] at h4
    exact ⟨h3, h4⟩

/-! ## Two callers -/

/-- A caller with other limits, another group and other supplementary groups, all of which `sampleConfig` settles, and whose descriptors are the same
though its tables are not. -/
def otherProc : Proc :=
  { sampleProc with
    limits := fun _ => ⟨77, 77⟩, gid := ⟨5, 5, 5⟩, groups := [], fds := [some 2, some 1, some 0, some 3, none, none], nextFile := 9 }

theorem wellFormed_of {p : Proc} (h : p.fds.all (·.all (decide <| · < p.ofds.length)) = true) : WellFormed p := by
  intro n k hk
  unfold FdTable.get at hk
  cases hx : p.fds[n]? with
  | none => rw [hx] at hk; cases hk
  | some x =>
    rw [hx] at hk
    have hk : x = some k := hk
    subst hk
    simpa using List.all_eq_true.mp h _ (List.mem_of_getElem? hx)

theorem sample_wellFormed : WellFormed sampleProc := wellFormed_of (by decide)

theorem other_alike : AlikeFor sampleConfig sampleProc otherProc := by
  refine ⟨fun r => ?_, ⟨rfl, rfl⟩, fun h => absurd h (by decide), fun h => absurd h (by decide), ?_, fun h => absurd h (by decide), rfl, rfl, rfl⟩
  · cases r <;> exact fun h => absurd h (by decide)
  · funext n
    match n with
    | 0 | 1 | 2 | 3 | 4 | 5 => rfl
    | n + 6 => rfl

example : ConfigOk sampleConfig ∧ WellFormed sampleProc ∧ WellFormed otherProc ∧ AlikeFor sampleConfig sampleProc otherProc ∧
    (∃ q, Started sampleConfig (sampleChild fun _ => false) sampleProc q) ∧ (∃ q, Started sampleConfig (sampleChild fun _ => false) otherProc q) :=
  ⟨sampleConfig_ok, sample_wellFormed, wellFormed_of (by decide), other_alike, ⟨_, sample_started⟩, ⟨_, _, _, _, rfl⟩⟩

/-- The two programs, which cannot tell their callers apart. -/
example : ∃ q q', Started sampleConfig (sampleChild fun _ => false) sampleProc q ∧ Started sampleConfig (sampleChild fun _ => false) otherProc q' ∧
    surroundings q = surroundings q' :=
  ⟨_, _, sample_started, ⟨_, _, _, rfl⟩, C125_alike_partial _ _ _ _ _ _ sampleConfig_ok sampleConfig_range sample_wellFormed (wellFormed_of (by decide))
    other_alike sample_started ⟨_, _, _, rfl⟩⟩

/-- A caller that ignores SIGPIPE, as servers and interpreters do. -/
def pipeDeafProc : Proc := { sampleProc with ignored := (· == 13) }

/-- A caller that has a file open for reading. -/
def readerProc : Proc :=
  { sampleProc with fds := sampleProc.fds ++ [some 4], ofds := sampleProc.ofds ++ [⟨c!"/srv/answers", true, false, false⟩] }

/-- The same request gives one program SIGPIPE ignored, and the other the signal's effect. -/
theorem C125_witness_signals : ∃ q q', Started sampleConfig (sampleChild fun _ => false) sampleProc q ∧
    Started sampleConfig (sampleChild fun _ => false) pipeDeafProc q' ∧ q.ignored 13 = false ∧ q'.ignored 13 = true :=
  ⟨_, _, sample_started, ⟨_, _, _, rfl⟩, rfl, rfl⟩

/-- The same request gives one program a descriptor of a file of the caller's. -/
theorem C125_witness_files : ∃ q q', Started sampleConfig (sampleChild fun _ => false) sampleProc q ∧
    Started sampleConfig (sampleChild fun _ => false) readerProc q' ∧ behind q 4 = some ⟨c!"/in", true, false, false⟩ ∧
    behind q' 4 = some ⟨c!"/srv/answers", true, false, false⟩ :=
  ⟨_, _, sample_started, ⟨_, _, _, rfl⟩, rfl, rfl⟩

/-- C125 is false of the code: nothing is reset between fork and execve but what the request mentions. -/
theorem C125_false : ¬C125_full := by
  intro h
  obtain ⟨q, q', h1, h2, h3, h4⟩ := C125_witness_signals
  have h5 := h sampleConfig _ sampleProc pipeDeafProc q q' sampleConfig_ok sampleConfig_range sample_wellFormed (wellFormed_of (by decide)) rfl rfl h1 h2
  have h6 : q.ignored = q'.ignored := congrArg (·.ignored) h5
  rw [h6, h4] at h3
  cases h3

end Judger
