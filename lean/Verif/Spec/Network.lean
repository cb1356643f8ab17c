import Verif.Model.Seccomp

/-!
# How a process comes to a network socket

Written from socket(2), io_uring(7), pidfd_getfd(2), unix(7), fork(2) and seccomp(2); nothing of the code is used.  A process that has none gets a socket
by `socket`; through a ring (`io_uring_setup`, `io_uring_enter` with IORING_OP_SOCKET, since Linux 5.19), whose work no filter sees; by
copying the descriptor of another process (`pidfd_getfd`); or from a process of the program that has one.  Calls through another ABI
(32 bit, x32) do the same under other numbers.
-/

set_option autoImplicit false

namespace Judger.Spec

/-- A process of the program: has it a network socket, has it a ring. -/
structure Caller where
  socket : Bool
  ring : Bool
  filters : List Filter

/-- The kernel is asked for the call with this number, by this or another ABI, and the filters let it pass. -/
def Passes (x : Caller) (nr : Nat) (r : Req) : Prop := (r.native = false ∨ r.nr = nr) ∧ evalAll x.filters r = .allow

/-- Everything the processes of the program can do about it.  `rings`: the kernel has rings that open sockets; `lenders`: there is a process outside
the program that has a socket and whose descriptors it may copy. -/
inductive Nets (rings lenders : Prop) : List Caller → List Caller → Prop
  | start (F : List Caller) : Nets rings lenders F F
  | socket {F : List Caller} (a b : List Caller) (x : Caller) (r : Req) (h : Nets rings lenders F (a ++ x :: b)) (hp : Passes x 41 r) :
      Nets rings lenders F (a ++ { x with socket := true } :: b)
  | ring {F : List Caller} (a b : List Caller) (x : Caller) (r : Req) (h : Nets rings lenders F (a ++ x :: b)) (hr : rings)
      (hp : Passes x 425 r) : Nets rings lenders F (a ++ { x with ring := true } :: b)
  | enters {F : List Caller} (a b : List Caller) (x : Caller) (r : Req) (h : Nets rings lenders F (a ++ x :: b)) (hx : x.ring = true)
      (hp : Passes x 426 r) : Nets rings lenders F (a ++ { x with socket := true } :: b)
  | copies {F : List Caller} (a b : List Caller) (x : Caller) (r : Req) (h : Nets rings lenders F (a ++ x :: b)) (hl : lenders)
      (hp : Passes x 438 r) : Nets rings lenders F (a ++ { x with socket := true } :: b)
  /-- sockets and rings are handed on within the program -/
  | given {F : List Caller} (a b : List Caller) (x y : Caller) (h : Nets rings lenders F (a ++ x :: b)) (hy : y ∈ a ++ x :: b) :
      Nets rings lenders F (a ++ { x with socket := x.socket || y.socket, ring := x.ring || y.ring } :: b)
  | installs {F : List Caller} (a b : List Caller) (x : Caller) (f : Filter) (h : Nets rings lenders F (a ++ x :: b)) :
      Nets rings lenders F (a ++ { x with filters := f :: x.filters } :: b)
  | forks {F G : List Caller} (h : Nets rings lenders F G) (x : Caller) (hx : x ∈ G) : Nets rings lenders F (G ++ [x])
  | ends {F : List Caller} (a b : List Caller) (x : Caller) (h : Nets rings lenders F (a ++ x :: b)) : Nets rings lenders F (a ++ b)

end Judger.Spec
