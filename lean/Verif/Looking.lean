import Verif.Indirect14
import Verif.Polymorphic14

/-!
# Owned objects that look at owners

Constructors, assignment operators and the destructor of an owned type are called in the middle of the functions of `indirect` and `polymorphic`.  They can know owners (by a pointer to the
parent, a registry, a global variable) and look at them: are they valueless, where is the owned object, what is the allocator?  `TOps` admits such types, since its operations are arbitrary
computations; this file describes those that depend on owners.  Nothing in this file models code of /repo.
-/

set_option autoImplicit false

namespace Verif
namespace Looking

/-- All that can be seen of owners: which are alive, whether and where they own an object, and their allocators. -/
abbrev Owners (L A : Type) := L → Option (Handle A)

section
variable {L A R B Ty V X : Type}

/-- An owned type whose functions first look at all owners.  `U h` is what its functions do if they see `h`.  The flags are compile-time properties of the type. -/
def looking (assignable copyAssignable : Bool) (U : Owners L A → TOps (St L A R B) A X) : TOps (St L A R B) A X where
  make a d xs s := (U s.hs).make a d xs s
  copyCtor a d q s := (U s.hs).copyCtor a d q s
  moveCtor a d q s := (U s.hs).moveCtor a d q s
  copyAssign d q s := (U s.hs).copyAssign d q s
  moveAssign d q s := (U s.hs).moveAssign d q s
  assignArg d x s := (U s.hs).assignArg d x s
  dtor a p s := (U s.hs).dtor a p s
  assignable := assignable
  copyAssignable := copyAssignable

/-- Derived types that look at all owners.  Simplification: `construct` of the allocator for control blocks is the default one. -/
def lookingP (base : Ty) (U : Owners L A → POps (St L A R (PBody Ty V)) A Ty X) : POps (St L A R (PBody Ty V)) A Ty X where
  base := base
  make ty a d xs s := (U s.hs).make ty a d xs s
  copyCtor ty a d q s := (U s.hs).copyCtor ty a d q s
  moveCtor ty a d q s := (U s.hs).moveCtor ty a d q s
  dtor ty a p s := (U s.hs).dtor ty a p s
  block _ _ m := m

/-- A type whose destructor comes back to the owner at `x`: before it does what a destructor of `T` does it calls `x = y`.  At most `n` such calls are nested. -/
def returning [DecidableEq L] [DecidableEq R] [Body B] (tr : ATraits A R) (T : TOps (St L A R B) A X) (x y : L) : Nat → TOps (St L A R B) A X
  | 0 => T
  | n + 1 => { T with
      dtor := fun a p => do
        let _ ← Indirect.assignCopy tr (returning tr T x y n) x y
        T.dtor a p }

/-- The same for derived types. -/
def returningP [DecidableEq L] [DecidableEq R] [DecidableEq Ty] (tr : ATraits A R) (P : POps (St L A R (PBody Ty V)) A Ty X) (x y : L) : Nat → POps (St L A R (PBody Ty V)) A Ty X
  | 0 => P
  | n + 1 => { P with
      dtor := fun ty a p => do
        let _ ← Polymorphic.assignCopy tr (returningP tr P x y n) x y
        P.dtor ty a p }

end
end Looking
end Verif
