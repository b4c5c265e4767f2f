import Verif.Fine

/-!
# Threads

Any number of threads that make calls on objects in the same memory.  An elementary access is atomic, and the accesses of
different threads are interleaved arbitrarily.  Simplification: memory is sequentially consistent, which C++ guarantees for
programs without data races; `Spec/Concurrent.lean` says what a data race is.  Calls of the allocator are atomic
(allocators have to be usable by several threads at once).  Nothing in this file models code of /repo.
-/

set_option autoImplicit false

namespace Verif

/-- A thread: the rest of the call it is in (if any), what the environment decides during this call (see `St`), and what it
has seen of its calls so far. -/
structure Thread (L A R B Out : Type) where
  cur : Option (Prog L A R B Out)
  env : Env
  ai : Nat
  ti : Nat
  log : List (Seen Out)

/-- The memory and all threads. -/
structure Conf (Th L A R B Out : Type) where
  hs : L → Option (Handle A)
  heap : Addr → Option (Cell R B)
  trace : List (Ev R)
  th : Th → Thread L A R B Out

/-- The program goes on, was ended by `std::terminate`, or has undefined behaviour. -/
inductive Outcome (C : Type) where
  | running (c : C)
  | terminated
  | ub (u : UB)

namespace Conf
variable {Th L A R B Op Out : Type} [DecidableEq Th] [DecidableEq L] [DecidableEq R] [Body B]

/-- The memory as seen by a thread. -/
def view (c : Conf Th L A R B Out) (i : Th) : St L A R B :=
  ⟨c.hs, c.heap, c.trace, (c.th i).env, (c.th i).ai, (c.th i).ti⟩

/-- Thread `i` changes. -/
def setTh (c : Conf Th L A R B Out) (i : Th) (t : Thread L A R B Out) : Conf Th L A R B Out := { c with th := upd c.th i t }

/-- Thread `i` makes a step: it begins its next call (in environment `e`), makes one access, or notes the result of a call.
`prog` are the programs of the calls; `next i log` is the call that thread `i` makes next when it has seen `log`. -/
def tick (prog : Op → Prog L A R B Out) (next : Th → List (Seen Out) → Option Op) (i : Th) (e : Env)
    (c : Conf Th L A R B Out) : Outcome (Conf Th L A R B Out) :=
  match (c.th i).cur with
  | none =>
    match next i (c.th i).log with
    | none => .running c
    | some o => .running (c.setTh i ⟨some (prog o), e, 0, 0, (c.th i).log⟩)
  | some (.ret out) => .running (c.setTh i { c.th i with cur := none, log := (c.th i).log ++ [.ret out] })
  | some (.throw x) => .running (c.setTh i { c.th i with cur := none, log := (c.th i).log ++ [.exn x] })
  | some .terminate => .terminated
  | some (.undef u) => .ub u
  | some (.act a k) =>
    match a.exec (c.view i) with
    | .ok (r, s) => .running
      { hs := s.hs, heap := s.heap, trace := s.trace
        th := upd c.th i { c.th i with cur := some (k r), ai := s.ai, ti := s.ti } }
    | .error u => .ub u

/-- The threads make steps in the given order. -/
def exec (prog : Op → Prog L A R B Out) (next : Th → List (Seen Out) → Option Op) :
    List (Th × Env) → Conf Th L A R B Out → Outcome (Conf Th L A R B Out)
  | [], c => .running c
  | (i, e) :: sched, c =>
    match tick prog next i e c with
    | .running c' => exec prog next sched c'
    | .terminated => .terminated
    | .ub u => .ub u

/-- No thread has begun, in the memory of `s`. -/
def start (s : St L A R B) : Conf Th L A R B Out := ⟨s.hs, s.heap, s.trace, fun _ => ⟨none, s.env, 0, 0, []⟩⟩

end Conf
end Verif
