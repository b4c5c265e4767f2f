import Verif.Machine

/-!
# Owned types

The type `T` owned by an `indirect<T, A>` is a parameter of the headers.  `TOps` is what the headers can
do with a `T` (machine computations on addresses); `TSpec` describes an arbitrary `T` without indirect
members by pure functions, and `plain` turns it into operations.
-/

set_option autoImplicit false

namespace Verif

/-- An arbitrary owned type.  `V` its values, `X` the type of constructor/assignment arguments.  The last
`Nat` of every operation is the environment's choice: it decides whether and how the operation throws.
Nothing is assumed about these functions.
Simplifications: copying does not modify its source; destruction does not throw. -/
structure TSpec (V X : Type) where
  /-- construction from arguments -/
  make : TArgs X → Nat → Except Exn V
  /-- copy construction -/
  copy : V → Nat → Except Exn V
  /-- move construction: the outcome, and what is left in the source (also if it throws) -/
  move : V → Nat → Except Exn V × V
  /-- copy assignment `dst = src`: exception or not, and what is left in `dst` (also if it throws) -/
  copyAssign : (dst src : V) → Nat → Option Exn × V
  /-- move assignment: exception or not, what is left in `dst`, and in `src` (if they are the same object,
  the value for `dst` counts) -/
  moveAssign : (dst src : V) → Nat → Option Exn × V × V
  /-- assignment from an argument -/
  assignArg : V → X → Nat → Option Exn × V
  /-- `std::assignable_from<T&, T>` (queried by indirect.h:243) -/
  assignable : Bool
  /-- `std::is_copy_assignable<T>` (queried by indirect_cxx14.h:253) -/
  copyAssignable : Bool

/-- What the headers do with a `T`: computations on addresses of objects.  Constructors are called through
`allocator_traits<A>::construct`, which has the allocator as an argument and may pass it on to `T`,
destructors through `allocator_traits<A>::destroy`, which has it too. -/
structure TOps (σ A X : Type) where
  make : A → (dst : Addr) → TArgs X → M σ Unit
  copyCtor : A → (dst src : Addr) → M σ Unit
  moveCtor : A → (dst src : Addr) → M σ Unit
  copyAssign : (dst src : Addr) → M σ Unit
  moveAssign : (dst src : Addr) → M σ Unit
  assignArg : (dst : Addr) → X → M σ Unit
  dtor : A → Addr → M σ Unit
  assignable : Bool
  copyAssignable : Bool

/-- A forwarded argument `std::forward<U>(u)`: something that is not a `T`, an lvalue `T`, or an
rvalue `T`. -/
inductive Fwd (X : Type) where
  | arg (x : X)
  | lval (q : Addr)
  | rval (q : Addr)
  deriving DecidableEq, Repr

namespace TOps
variable {σ A X : Type}

/-- `construct(a, dst, std::forward<U>(u))`. -/
def makeFwd (T : TOps σ A X) (a : A) (dst : Addr) : Fwd X → M σ Unit
  | .arg x => T.make a dst (.pack [x])
  | .lval q => T.copyCtor a dst q
  | .rval q => T.moveCtor a dst q

/-- `*dst = std::forward<U>(u)`. -/
def assignFwd (T : TOps σ A X) (dst : Addr) : Fwd X → M σ Unit
  | .arg x => T.assignArg dst x
  | .lval q => T.copyAssign dst q
  | .rval q => T.moveAssign dst q

end TOps

/-- Contents of a block of an `indirect`: raw storage or a `T` with a value. -/
abbrev Obj (V : Type) := Option V

instance (V : Type) : Body (Obj V) where
  raw := none
  occupied b := b.isSome

section Plain
variable {L A R V X : Type} [DecidableEq L] [DecidableEq R]

/-- Read the object at `p`. -/
def readObj (p : Addr) : M (St L A R (Obj V)) V := do
  match ← readBody p with
  | some v => pure v
  | none => M.undef .deadObject

/-- Change the value of the live object at `p`. -/
def writeObj (p : Addr) (v : V) : M (St L A R (Obj V)) Unit := do
  let _ ← readObj p
  writeBody p (some v)

/-- The lifetime of an object with value `v` begins in the storage at `p`. -/
def beginObj (p : Addr) (v : V) (how : How) : M (St L A R (Obj V)) Unit := fun s =>
  match s.heap p with
  | some ⟨r, none⟩ =>
    .ok () { s with heap := upd s.heap p (some ⟨r, some v⟩), trace := s.trace ++ [.construct p how] }
  | _ => .ub .notRaw

/-- The lifetime of the object at `p` ends. -/
def endObj (p : Addr) : M (St L A R (Obj V)) Unit := do
  let _ ← readObj p
  writeBody p none
  emit (.destroy p)

/-- The outcome of a constructor. -/
def finish (p : Addr) (how : How) : Except Exn V → M (St L A R (Obj V)) Unit
  | .ok v => beginObj p v how
  | .error e => M.throwE e

/-- Rethrow if the assignment threw. -/
def rethrow {σ : Type} : Option Exn → M σ Unit
  | none => pure ()
  | some e => M.throwE e

/-- The operations of an owned type without indirect members that does not use the allocator it is constructed with
(`construct` is the default one, or `T` is not allocator-aware; for other types see `Verif/Aware.lean`). -/
def plain (T : TSpec V X) : TOps (St L A R (Obj V)) A X where
  make _ dst xs := do
    let c ← choose
    finish dst .args (T.make xs c)
  copyCtor _ dst src := do
    let v ← readObj src
    let c ← choose
    finish dst (.copyOf src) (T.copy v c)
  moveCtor _ dst src := do
    let v ← readObj src
    let c ← choose
    writeObj src (T.move v c).2
    finish dst (.moveOf src) (T.move v c).1
  copyAssign dst src := do
    let d ← readObj dst
    let v ← readObj src
    let c ← choose
    emit (.assign dst (.copyOf src))
    writeObj dst (T.copyAssign d v c).2
    rethrow (T.copyAssign d v c).1
  moveAssign dst src := do
    let d ← readObj dst
    let v ← readObj src
    let c ← choose
    emit (.assign dst (.moveOf src))
    writeObj src (T.moveAssign d v c).2.2
    writeObj dst (T.moveAssign d v c).2.1
    rethrow (T.moveAssign d v c).1
  assignArg dst x := do
    let d ← readObj dst
    let c ← choose
    emit (.assign dst .args)
    writeObj dst (T.assignArg d x c).2
    rethrow (T.assignArg d x c).1
  dtor _ p := endObj p
  assignable := T.assignable
  copyAssignable := T.copyAssignable

end Plain
end Verif
