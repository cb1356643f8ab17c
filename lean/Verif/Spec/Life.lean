import Verif.Model.Kernel

/-!
# What the judged program and its descendants can do to their limits, their identity and the size of files

Written from setrlimit(2), setresuid(2), setresgid(2), setgroups(2), execve(2), prctl(2), fork(2), write(2) and ftruncate(2); nothing of the
code is used.  Installed filters only forbid, so they are left out: every step below is at most what the kernel allows.  The judged program runs
alone: no other process acts on it or on its files.
-/

set_option autoImplicit false

namespace Judger.Spec

/-- The new ids are taken from the old ones. -/
def Ids.From (new old : Ids) : Prop :=
  (new.r = old.r ∨ new.r = old.e ∨ new.r = old.s) ∧ (new.e = old.r ∨ new.e = old.e ∨ new.e = old.s) ∧
  (new.s = old.r ∨ new.s = old.e ∨ new.s = old.s)

/-- The file a process is replaced by: its owner and group if the set-user-ID and set-group-ID bits are set. -/
structure Image where
  setuid : Option Int
  setgid : Option Int

/-- Effective and saved id after execve: the owner's if the bit is set and honoured, else the effective id. -/
def Ids.exec (i : Ids) (owner : Option Int) (honoured : Bool) : Ids :=
  match owner, honoured with
  | some o, true => ⟨i.r, o, o⟩
  | _, _ => ⟨i.r, i.e, i.e⟩

/-- What one process can do to itself. -/
inductive Act : Proc → Proc → Prop
  /-- setuid, seteuid, setreuid, setresuid -/
  | uids (p : Proc) (u : Ids) (h : p.privileged = true ∨ Ids.From u p.uid) : Act p { p with uid := u }
  /-- setgid, setegid, setregid, setresgid -/
  | gids (p : Proc) (g : Ids) (h : p.privileged = true ∨ Ids.From g p.gid) : Act p { p with gid := g }
  /-- setgroups -/
  | groups (p : Proc) (gs : List Int) (h : p.privileged = true) : Act p { p with groups := gs }
  /-- execve: with no_new_privs the set-id bits are ignored -/
  | execs (p : Proc) (i : Image) :
      Act p { p with uid := Ids.exec p.uid i.setuid (!p.noNewPrivs), gid := Ids.exec p.gid i.setgid (!p.noNewPrivs) }
  /-- prctl(PR_SET_NO_NEW_PRIVS): it cannot be unset -/
  | noNewPrivs (p : Proc) : Act p { p with noNewPrivs := true }
  /-- seccomp -/
  | filters (p : Proc) (f : Filter) : Act p { p with filters := f :: p.filters }
  /-- open, close, dup, ... -/
  | descriptors (p : Proc) (fds : FdTable) (ofds : List OpenFile) : Act p { p with fds := fds, ofds := ofds }
  /-- sigaction, sigprocmask -/
  | signals (p : Proc) (ignored blocked : Nat → Bool) : Act p { p with ignored := ignored, blocked := blocked }

/-- The judged program and its descendants, and the sizes of all files. -/
structure Scene where
  procs : List Proc
  size : Nat → Nat

/-- Everything the judged program and its descendants can do. -/
inductive Life : Scene → Scene → Prop
  | start (s : Scene) : Life s s
  | act {s t : Scene} (h : Life s t) (i : Nat) (p p' : Proc) (hp : t.procs[i]? = some p) (ha : Act p p') :
      Life s { t with procs := t.procs.set i p' }
  /-- setrlimit, or prlimit for another of these processes: raising a hard limit needs privilege -/
  | limit {s t : Scene} (h : Life s t) (i : Nat) (caller p : Proc) (r : Res) (v : RLimit) (hc : caller ∈ t.procs) (hp : t.procs[i]? = some p)
      (hv : v.cur ≤ v.max) (ha : caller.privileged = true ∨ v.max ≤ (p.limits r).max) :
      Life s { t with procs := t.procs.set i { p with limits := fun r' => if r' = r then v else p.limits r' } }
  /-- fork, clone: everything is inherited -/
  | forks {s t : Scene} (h : Life s t) (p : Proc) (hp : p ∈ t.procs) : Life s { t with procs := t.procs ++ [p] }
  | exits {s t : Scene} (h : Life s t) (i : Nat) : Life s { t with procs := t.procs.eraseIdx i }
  /-- write, truncate, fallocate: a file is not made longer than the limit -/
  | grows {s t : Scene} (h : Life s t) (p : Proc) (f n : Nat) (hp : p ∈ t.procs) (hn : (n : Int) ≤ (p.limits .fsize).cur) :
      Life s { t with size := fun g => if g = f then max n (t.size g) else t.size g }
  /-- truncate -/
  | shrinks {s t : Scene} (h : Life s t) (f n : Nat) : Life s { t with size := fun g => if g = f then min n (t.size g) else t.size g }

end Judger.Spec
