import Verif.Spec.Verdict

/-!
# A program that is refused memory

Written from setrlimit(2) (RLIMIT_AS), mmap(2), brk(2) and getrusage(2) (`ru_maxrss`); nothing of the code is used.  Everything is counted in pages of 4096 bytes, as
the kernel does.  A call that would make the address space larger than the limit fails (ENOMEM), and the program goes on as it likes.  Pages are in memory from when
they are first used.  Left out: a program that lowers its own limit, and memory that several processes share.
-/

set_option autoImplicit false

namespace Judger.Spec

/-- A call that was refused: the pages of the address space and those of them in memory at that time, and the pages asked for. -/
structure Refusal where
  space : Nat
  here : Nat
  asked : Nat
deriving Repr, DecidableEq

/-- A program: the pages of its address space, those in memory now, the most that ever were, and the calls that were refused. -/
structure Tenant where
  space : Nat
  here : Nat
  peak : Nat
  refusals : List Refusal
deriving Repr, DecidableEq

/-- The program as it begins. -/
def Tenant.initial (space here : Nat) : Tenant := ⟨space, here, here, []⟩

/-- `Fits top n`: `n` pages are within a limit of `top` bytes. -/
def Fits (top : Int) (n : Nat) : Prop := (n : Int) ≤ top / 4096

/-- What a program can do under a limit of `top` bytes. -/
inductive Rents (top : Int) : Tenant → Tenant → Prop
  | start (x : Tenant) : Rents top x x
  /-- mmap, brk, growth of the stack -/
  | maps {x y : Tenant} (h : Rents top x y) (n : Nat) (hn : Fits top (y.space + n)) : Rents top x { y with space := y.space + n }
  /-- the same, refused -/
  | refused {x y : Tenant} (h : Rents top x y) (n : Nat) (hn : ¬Fits top (y.space + n)) :
      Rents top x { y with refusals := ⟨y.space, y.here, n⟩ :: y.refusals }
  /-- pages are used for the first time, or written out to the disc and read again -/
  | uses {x y : Tenant} (h : Rents top x y) (n : Nat) (hn : n ≤ y.space) : Rents top x { y with here := n, peak := max y.peak n }
  /-- munmap, brk -/
  | unmaps {x y : Tenant} (h : Rents top x y) (n m : Nat) (hn : n ≤ y.space) (hm : m ≤ n) (hh : m ≤ y.here) : Rents top x { y with space := n, here := m }

/-- What wait4 reports as `ru_maxrss`, in KiB; `setup` is the most that was in memory before execve. -/
def Tenant.reported (setup : Nat) (x : Tenant) : Nat := max setup (4 * x.peak)

end Judger.Spec
