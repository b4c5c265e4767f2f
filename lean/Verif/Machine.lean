/-!
# The machine

The abstract C++ machine that the model of `indirect` and `polymorphic` runs on.

Nothing in this file models code of /repo: it models the parts of the C++ abstract machine and of the
standard library that the headers rely on (object lifetime, storage, exceptions, `noexcept`,
`std::allocator_traits`).  Simplifications are stated where they are made.
-/

set_option autoImplicit false

namespace Verif

/-- Addresses of heap blocks.  A null pointer is `none : Option Addr`. -/
abbrev Addr := Nat

/-- What can be thrown: a failed allocation, or an exception of an operation of the owned type. -/
inductive Exn where
  | badAlloc
  | user (code : Nat)
  deriving DecidableEq, Repr

/-- Kinds of undefined behaviour the machine detects. -/
inductive UB where
  /-- `*x` or `x->` on a valueless object (the `assert`ed precondition of the accessors). -/
  | valuelessAccess
  /-- Reading or writing an `indirect`/`polymorphic` object outside its lifetime. -/
  | deadHandle
  /-- Constructing an `indirect`/`polymorphic` where one is already alive. -/
  | liveHandle
  /-- Access to an owned object or control block outside its lifetime. -/
  | deadObject
  /-- Constructing an object in storage that is not allocated or already holds a live object. -/
  | notRaw
  /-- Freeing storage that is not allocated (includes double free). -/
  | badFree
  /-- Freeing storage with an allocator of a different memory resource. -/
  | wrongArena
  /-- Freeing storage that still holds a live owned object. -/
  | freeLive
  /-- Reaching `std::unreachable()`. -/
  | unreachable
  deriving DecidableEq, Repr

/-- The result of running a computation. -/
inductive Res (σ α : Type) where
  /-- normal return -/
  | ok (a : α) (s : σ)
  /-- an exception leaves the computation, in state `s` -/
  | threw (e : Exn) (s : σ)
  /-- `std::terminate` was called -/
  | terminated
  /-- undefined behaviour -/
  | ub (u : UB)
  /-- recursion did not end within the given fuel (only used by the recursive owned types) -/
  | diverged

/-- Computations: total functions of the machine state. -/
def M (σ α : Type) : Type := σ → Res σ α

namespace M
variable {σ α β : Type}

/-- Normal return. -/
def ret (a : α) : M σ α := fun s => .ok a s

/-- Sequencing. -/
def andThen (m : M σ α) (f : α → M σ β) : M σ β := fun s =>
  match m s with
  | .ok a s' => f a s'
  | .threw e s' => .threw e s'
  | .terminated => .terminated
  | .ub u => .ub u
  | .diverged => .diverged

instance : Monad (M σ) where
  pure := ret
  bind := andThen

/-- `throw e`. -/
def throwE (e : Exn) : M σ α := fun s => .threw e s

/-- Undefined behaviour. -/
def undef (u : UB) : M σ α := fun _ => .ub u

/-- Out of recursion fuel. -/
def diverge : M σ α := fun _ => .diverged

/-- `try { m } catch (...) { cleanup; throw; }`. -/
def onThrow (m : M σ α) (cleanup : M σ Unit) : M σ α := fun s =>
  match m s with
  | .threw e s' =>
    match cleanup s' with
    | .ok _ s'' => .threw e s''
    | .threw e' s'' => .threw e' s''
    | .terminated => .terminated
    | .ub u => .ub u
    | .diverged => .diverged
  | r => r

/-- A function declared `noexcept(b)`: if `b` holds an escaping exception calls `std::terminate`. -/
def noexceptIf (b : Bool) (m : M σ α) : M σ α := fun s =>
  match m s with
  | .threw e s' => if b then .terminated else .threw e s'
  | r => r

end M

/-- An `indirect` or `polymorphic` object: its pointer member (`p_` resp. `cb_`) and its allocator
`alloc_` (indirect.h:428-435, polymorphic.h:117-124). -/
structure Handle (A : Type) where
  p : Option Addr
  alloc : A
  deriving DecidableEq, Repr

/-- A heap block: the memory resource it was allocated from and its contents. -/
structure Cell (R B : Type) where
  arena : R
  body : B
  deriving DecidableEq, Repr

/-- Contents of a heap block. -/
class Body (B : Type) where
  /-- freshly allocated storage without an object -/
  raw : B
  /-- does the storage hold a live owned object? -/
  occupied : B → Bool

/-- How an owned object obtains its value. -/
inductive How where
  /-- from constructor or assignment arguments -/
  | args
  /-- by copying the object at an address -/
  | copyOf (q : Addr)
  /-- by moving from the object at an address -/
  | moveOf (q : Addr)
  deriving DecidableEq, Repr

/-- The calls that an allocator can customise. -/
inductive Custom where
  | construct
  | destroy
  deriving DecidableEq, Repr

/-- What an allocator constructs and destroys: owned objects and control blocks. -/
inductive Part where
  | object
  | block
  deriving DecidableEq, Repr

/-- Observable effects outside the objects themselves, in program order. -/
inductive Ev (R : Type) where
  | alloc (r : R) (p : Addr)
  | dealloc (r : R) (p : Addr)
  /-- an owned object was completely constructed in block `p` -/
  | construct (p : Addr) (how : How)
  /-- an owned object was assigned (successfully or not) -/
  | assign (p : Addr) (how : How)
  /-- an owned object was destroyed -/
  | destroy (p : Addr)
  /-- `construct` or `destroy` of an allocator with memory resource `r` was called for something in block `p` and did it.
  Only recorded for allocators that count (see `Verif/Counting.lean`). -/
  | custom (c : Custom) (k : Part) (r : R) (p : Addr)
  deriving DecidableEq, Repr

/-- What the environment decides during one call: whether the `i`-th allocation fails, which address it
returns otherwise, and a number handed to the `i`-th operation of the owned type, which decides whether
and how that operation throws.  Theorems quantify over all environments. -/
structure Env where
  fail : Nat → Bool
  pick : Nat → Addr
  choice : Nat → Nat

/-- Machine states.  `L` locations of `indirect`/`polymorphic` objects, `A` allocator values,
`R` memory resources, `B` contents of heap blocks. -/
structure St (L A R B : Type) where
  /-- the `indirect`/`polymorphic` object alive at a location, if any -/
  hs : L → Option (Handle A)
  /-- allocated storage -/
  heap : Addr → Option (Cell R B)
  /-- everything that happened so far -/
  trace : List (Ev R)
  /-- choices of the environment for the current call -/
  env : Env
  /-- number of allocations attempted in the current call -/
  ai : Nat
  /-- number of operations of the owned type attempted in the current call -/
  ti : Nat

/-- Function update. -/
def upd {α β : Type} [DecidableEq α] (f : α → β) (a : α) (b : β) : α → β :=
  fun x => if x = a then b else f x

namespace St
variable {L A R B : Type}

/-- Start a call in environment `e`. -/
def enter (s : St L A R B) (e : Env) : St L A R B := { s with env := e, ai := 0, ti := 0 }

end St

section Prims
variable {L A R B : Type} [DecidableEq L] [DecidableEq R] [Body B]

/-- Record an event. -/
def emit (ev : Ev R) : M (St L A R B) Unit := fun s =>
  .ok () { s with trace := s.trace ++ [ev] }

/-- The environment's number for the next operation of the owned type. -/
def choose : M (St L A R B) Nat := fun s =>
  .ok (s.env.choice s.ti) { s with ti := s.ti + 1 }

/-- Read the data members of the object at `l`. -/
def getH (l : L) : M (St L A R B) (Handle A) := fun s =>
  match s.hs l with
  | some h => .ok h s
  | none => .ub .deadHandle

/-- Write the pointer member of the object at `l`. -/
def setP (l : L) (p : Option Addr) : M (St L A R B) Unit := fun s =>
  match s.hs l with
  | some h => .ok () { s with hs := upd s.hs l (some { h with p := p }) }
  | none => .ub .deadHandle

/-- Write the allocator member of the object at `l`. -/
def setAlloc (l : L) (a : A) : M (St L A R B) Unit := fun s =>
  match s.hs l with
  | some h => .ok () { s with hs := upd s.hs l (some { h with alloc := a }) }
  | none => .ub .deadHandle

/-- The lifetime of an object with these data members begins at `l`.
Simplification: constructors of the model return their data members instead of writing to `*this`
while it is under construction; no constructor in the code hands out `this`. -/
def emplace (l : L) (h : Handle A) : M (St L A R B) Unit := fun s =>
  match s.hs l with
  | some _ => .ub .liveHandle
  | none => .ok () { s with hs := upd s.hs l (some h) }

/-- The lifetime of the object at `l` ends. -/
def endLife (l : L) : M (St L A R B) Unit := fun s =>
  match s.hs l with
  | some _ => .ok () { s with hs := upd s.hs l none }
  | none => .ub .deadHandle

/-- `allocator_traits::allocate(alloc, 1)` for an allocator with memory resource `r`: throws, or returns
an address that is not currently allocated.  Every such behaviour is some environment's (an environment
that picks an allocated address stands for one whose allocation fails). -/
def allocate (r : R) : M (St L A R B) Addr := fun s =>
  let p := s.env.pick s.ai
  let s' := { s with ai := s.ai + 1 }
  if s.env.fail s.ai then .threw .badAlloc s'
  else match s.heap p with
    | some _ => .threw .badAlloc s'
    | none => .ok p { s' with
        heap := upd s.heap p (some ⟨r, Body.raw⟩)
        trace := s.trace ++ [.alloc r p] }

/-- `allocator_traits::deallocate(alloc, p, 1)`.  The storage must be allocated, from the same memory
resource, and must not hold a live object any more. -/
def deallocate (r : R) (p : Addr) : M (St L A R B) Unit := fun s =>
  match s.heap p with
  | none => .ub .badFree
  | some c =>
    if c.arena ≠ r then .ub .wrongArena
    else if Body.occupied c.body then .ub .freeLive
    else .ok () { s with heap := upd s.heap p none, trace := s.trace ++ [.dealloc r p] }

/-- Contents of the block at `p`; access to unallocated storage is undefined. -/
def readBody (p : Addr) : M (St L A R B) B := fun s =>
  match s.heap p with
  | none => .ub .deadObject
  | some c => .ok c.body s

/-- Replace the contents of the block at `p`. -/
def writeBody (p : Addr) (b : B) : M (St L A R B) Unit := fun s =>
  match s.heap p with
  | none => .ub .deadObject
  | some c => .ok () { s with heap := upd s.heap p (some { c with body := b }) }

end Prims

/-- What the headers use of an allocator type through `std::allocator_traits`.
Simplifications: copying and comparing allocators does not throw (Cpp17Allocator requirements); pointers
are plain; `construct`/`destroy` are the defaults (placement new / destructor call). -/
structure ATraits (A R : Type) where
  /-- `operator==` -/
  eq : A → A → Bool
  /-- the memory resource `allocate`/`deallocate` work on -/
  res : A → R
  /-- `is_always_equal` -/
  alwaysEqual : Bool
  /-- `propagate_on_container_copy_assignment` -/
  pocca : Bool
  /-- `propagate_on_container_move_assignment` -/
  pocma : Bool
  /-- `propagate_on_container_swap` -/
  pocs : Bool
  /-- `select_on_container_copy_construction` -/
  socc : A → A
  /-- default construction -/
  dflt : A

/-- The Cpp17Allocator requirement on equality: allocators that compare equal, and all allocators of an
`is_always_equal` type, can deallocate each other's storage. -/
structure ATraits.Sound {A R : Type} (tr : ATraits A R) : Prop where
  eq_res : ∀ a b, tr.eq a b = true → tr.res a = tr.res b
  always_res : tr.alwaysEqual = true → ∀ a b, tr.res a = tr.res b

/-- `operator==` of the allocator is reflexive, and `is_always_equal` does not lie.  Not needed for
safety; only for the theorems that say so. -/
structure ATraits.Reflexive {A R : Type} (tr : ATraits A R) : Prop where
  eq_refl : ∀ a, tr.eq a a = true

/-- Arguments of a constructor of the owned type: none, a pack, or an initializer list and a pack. -/
inductive TArgs (X : Type) where
  | none
  | pack (xs : List X)
  | ilist (l : List X) (xs : List X)
  deriving DecidableEq, Repr

end Verif
