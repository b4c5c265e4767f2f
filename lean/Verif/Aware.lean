import Verif.Polymorphic

/-!
# Owned types that use the allocator of their owner

`allocator_traits<A>::construct` is called with the owner's allocator (indirect.h:447, indirect_cxx14.h:559, polymorphic.h:80,
polymorphic_cxx14.h:135).  If `A` provides its own `construct`, as `std::pmr::polymorphic_allocator` and
`std::scoped_allocator_adaptor` do, the allocator is passed on to constructors of owned types that can use it
([allocator.uses.construction]; the tests indirect_test.cc:934-957 and polymorphic_test.cc:766-795 use such allocators).
Not code of /repo: what the owned type does with the allocator is up to the owned type.
-/

set_option autoImplicit false

namespace Verif

/-- An arbitrary owned type whose constructors are passed an allocator.  As `TSpec`; assignments are passed none. -/
structure AwareSpec (A V X : Type) where
  make : A → TArgs X → Nat → Except Exn V
  copy : A → V → Nat → Except Exn V
  move : A → V → Nat → Except Exn V × V
  copyAssign : (dst src : V) → Nat → Option Exn × V
  moveAssign : (dst src : V) → Nat → Option Exn × V × V
  assignArg : V → X → Nat → Option Exn × V
  assignable : Bool
  copyAssignable : Bool

/-- The types that a `polymorphic` can own, with constructors that are passed an allocator.  As `PSpec`. -/
structure PAwareSpec (A Ty V X : Type) where
  base : Ty
  make : Ty → A → TArgs X → Nat → Except Exn V
  copy : Ty → A → V → Nat → Except Exn V
  move : Ty → A → V → Nat → Except Exn V × V

section
variable {L A R V X Ty : Type} [DecidableEq L] [DecidableEq R] [DecidableEq Ty]

/-- What the headers do with objects of such a type.  As `plain`, but constructors use the allocator. -/
def aware (T : AwareSpec A V X) : TOps (St L A R (Obj V)) A X where
  make a dst xs := do
    let c ← choose
    finish dst .args (T.make a xs c)
  copyCtor a dst src := do
    let v ← readObj src
    let c ← choose
    finish dst (.copyOf src) (T.copy a v c)
  moveCtor a dst src := do
    let v ← readObj src
    let c ← choose
    writeObj src (T.move a v c).2
    finish dst (.moveOf src) (T.move a v c).1
  copyAssign dst src := do
    let d ← readObj dst
    let v ← readObj src
    let c ← choose
    emit (.assign dst (.copyOf src))
    writeObj dst (T.copyAssign d v c).2
    rethrow (T.copyAssign d v c).1
  moveAssign dst src := do
    let d ← readObj dst
    let v ← readObj src
    let c ← choose
    emit (.assign dst (.moveOf src))
    writeObj src (T.moveAssign d v c).2.2
    writeObj dst (T.moveAssign d v c).2.1
    rethrow (T.moveAssign d v c).1
  assignArg dst x := do
    let d ← readObj dst
    let c ← choose
    emit (.assign dst .args)
    writeObj dst (T.assignArg d x c).2
    rethrow (T.assignArg d x c).1
  dtor _ p := endObj p
  assignable := T.assignable
  copyAssignable := T.copyAssignable

/-- The same for `polymorphic`.  As `plainP`, but constructors use the allocator. -/
def awareP (P : PAwareSpec A Ty V X) : POps (St L A R (PBody Ty V)) A Ty X where
  base := P.base
  make ty a dst xs := do
    let c ← choose
    finishU ty dst .args (P.make ty a xs c)
  copyCtor ty a dst src := do
    let v ← readU ty src
    let c ← choose
    finishU ty dst (.copyOf src) (P.copy ty a v c)
  moveCtor ty a dst src := do
    let v ← readU ty src
    let c ← choose
    writeU src (P.move ty a v c).2
    finishU ty dst (.moveOf src) (P.move ty a v c).1
  dtor ty _ q := endU ty q
  block _ _ m := m

end
end Verif
