import Verif.Synced

/-!
# Threads that lock mutexes

Threads as in `Verif/Synced.lean`, that wait for each other by locking mutexes (`std::mutex`, `std::shared_mutex`).  What a
thread does next is a function of its place in its program; programs may loop for ever.  Nothing in this file models code of
/repo.

Simplification: locking and unlocking are atomic, and a thread that cannot lock a mutex tries again whenever it is its turn.
-/

set_option autoImplicit false

namespace Verif

/-- How a mutex is locked. -/
inductive Mode where
  | shared
  | exclusive
  deriving DecidableEq, Repr

/-- What a thread does next; `K` are the places in its program. -/
inductive Todo (M Op Out K : Type) where
  /-- nothing more -/
  | finish
  | lock (m : M) (mode : Mode) (k : K)
  | unlock (m : M) (k : K)
  /-- a call; where it goes on depends on what it sees of the call -/
  | call (o : Op) (k : Seen Out → K)

/-- A mutex: who has locked it exclusively, and who has locked it together with others. -/
structure Mutex (Th : Type) where
  writer : Option Th
  readers : List Th

/-- The threads, at their places, and the mutexes. -/
structure LSys (Th M K L A R B Op Out : Type) where
  sys : Sys Th L A R B Op Out
  place : Th → K
  table : M → Mutex Th

/-- What comes of it: it goes on, was ended by `std::terminate`, has undefined behaviour in a call, or because a mutex is
locked by a thread that has it, or unlocked by a thread that does not have it ([thread.mutex.requirements.mutex]). -/
inductive LOutcome (C : Type) where
  | running (c : C)
  | terminated
  | ub (u : UB)
  | misuse

namespace Mutex
variable {Th : Type} [DecidableEq Th]

/-- How thread `i` has locked it. -/
def held (x : Mutex Th) (i : Th) : Option Mode :=
  if x.writer = some i then some .exclusive else if i ∈ x.readers then some .shared else none

/-- Can it be locked now? -/
def available (x : Mutex Th) : Mode → Bool
  | .exclusive => x.writer.isNone && x.readers.isEmpty
  | .shared => x.writer.isNone

/-- Thread `i` locks it. -/
def take (x : Mutex Th) (i : Th) : Mode → Mutex Th
  | .exclusive => { x with writer := some i }
  | .shared => { x with readers := i :: x.readers }

/-- Thread `i` unlocks it. -/
def release (x : Mutex Th) (i : Th) : Mutex Th :=
  ⟨if x.writer = some i then none else x.writer, x.readers.filter fun j => decide (j ≠ i)⟩

end Mutex

namespace LSys
variable {Th M K L A R B Op Out : Type} [DecidableEq Th] [DecidableEq M] [DecidableEq L] [DecidableEq R] [Body B]

/-- How thread `i` has locked the mutexes. -/
def held (c : LSys Th M K L A R B Op Out) (i : Th) : M → Option Mode := fun m => (c.table m).held i

/-- Thread `i` goes on with its call. -/
def inCall (prog : Op → Prog L A R B Out) (act : Th → K → Todo M Op Out K) (i : Th) (c : LSys Th M K L A R B Op Out) :
    LOutcome (LSys Th M K L A R B Op Out) :=
  match Sys.tick prog (.step i) c.sys with
  | .running s =>
    match (c.sys.conf.th i).ending, act i (c.place i) with
    | some a, .call _ k => .running { c with sys := s, place := upd c.place i (k a) }
    | _, _ => .running { c with sys := s }
  | .terminated => .terminated
  | .ub u => .ub u

/-- Thread `i`, between two calls, does what comes next; `e` is what the environment decides if that is a call. -/
def between (prog : Op → Prog L A R B Out) (act : Th → K → Todo M Op Out K) (i : Th) (e : Env) (c : LSys Th M K L A R B Op Out) :
    LOutcome (LSys Th M K L A R B Op Out) :=
  match act i (c.place i) with
  | .finish => .running c
  | .lock m mode k =>
    if c.held i m ≠ none then .misuse
    else if (c.table m).available mode then
      .running { c with place := upd c.place i k, table := upd c.table m ((c.table m).take i mode) }
    else .running c
  | .unlock m k =>
    if c.held i m = none then .misuse
    else .running { c with place := upd c.place i k, table := upd c.table m ((c.table m).release i) }
  | .call o _ =>
    match Sys.tick prog (.start i o e) c.sys with
    | .running s => .running { c with sys := s }
    | .terminated => .terminated
    | .ub u => .ub u

/-- It is the turn of thread `i`. -/
def tick (prog : Op → Prog L A R B Out) (act : Th → K → Todo M Op Out K) (i : Th) (e : Env) (c : LSys Th M K L A R B Op Out) :
    LOutcome (LSys Th M K L A R B Op Out) :=
  match c.sys.run i with
  | some _ => inCall prog act i c
  | none => between prog act i e c

/-- The threads take turns as the schedule says. -/
def exec (prog : Op → Prog L A R B Out) (act : Th → K → Todo M Op Out K) :
    List (Th × Env) → LSys Th M K L A R B Op Out → LOutcome (LSys Th M K L A R B Op Out)
  | [], c => .running c
  | (i, e) :: sched, c =>
    match tick prog act i e c with
    | .running c' => exec prog act sched c'
    | .terminated => .terminated
    | .ub u => .ub u
    | .misuse => .misuse

/-- No thread has begun, in the memory of `s`; no mutex is locked. -/
def start (s : St L A R B) (place : Th → K) : LSys Th M K L A R B Op Out := ⟨Sys.start s, place, fun _ => ⟨none, []⟩⟩

end LSys
end Verif
