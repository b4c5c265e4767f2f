import Verif.Indirect14
import Verif.Polymorphic14

/-!
# Exceptions that pass through owners

Owned types here are arbitrary: their functions do anything, and may throw anything, destructors included.
-/

set_option autoImplicit false

namespace Verif.Spec.Passing
open Verif

section
variable {σ A X Ty α : Type}

/-- An outcome with another exception. -/
def rename (f : Exn → Exn) : Res σ α → Res σ α
  | .threw e s => .threw (f e) s
  | r => r

/-- A function that throws `f e` where `m` throws `e`. -/
def renamedM (f : Exn → Exn) (m : M σ α) : M σ α := fun s => rename f (m s)

/-- The type whose functions throw `f e` where those of `T` throw `e`. -/
def renamed (f : Exn → Exn) (T : TOps σ A X) : TOps σ A X where
  make a d xs := renamedM f (T.make a d xs)
  copyCtor a d q := renamedM f (T.copyCtor a d q)
  moveCtor a d q := renamedM f (T.moveCtor a d q)
  copyAssign d q := renamedM f (T.copyAssign d q)
  moveAssign d q := renamedM f (T.moveAssign d q)
  assignArg d x := renamedM f (T.assignArg d x)
  dtor a p := renamedM f (T.dtor a p)
  assignable := T.assignable
  copyAssignable := T.copyAssignable

/-- The same for derived types. -/
def renamedP (f : Exn → Exn) (P : POps σ A Ty X) : POps σ A Ty X where
  base := P.base
  make ty a d xs := renamedM f (P.make ty a d xs)
  copyCtor ty a d q := renamedM f (P.copyCtor ty a d q)
  moveCtor ty a d q := renamedM f (P.moveCtor ty a d q)
  dtor ty a p := renamedM f (P.dtor ty a p)
  block := P.block

/-- A function that does something undefined where `m` throws. -/
def fatalM (m : M σ α) : M σ α := fun s =>
  match m s with
  | .threw _ _ => .ub .unreachable
  | r => r

/-- The type whose functions do something undefined where those of `T` throw. -/
def fatal (T : TOps σ A X) : TOps σ A X where
  make a d xs := fatalM (T.make a d xs)
  copyCtor a d q := fatalM (T.copyCtor a d q)
  moveCtor a d q := fatalM (T.moveCtor a d q)
  copyAssign d q := fatalM (T.copyAssign d q)
  moveAssign d q := fatalM (T.moveAssign d q)
  assignArg d x := fatalM (T.assignArg d x)
  dtor a p := fatalM (T.dtor a p)
  assignable := T.assignable
  copyAssignable := T.copyAssignable

/-- The same for derived types. -/
def fatalP (P : POps σ A Ty X) : POps σ A Ty X where
  base := P.base
  make ty a d xs := fatalM (P.make ty a d xs)
  copyCtor ty a d q := fatalM (P.copyCtor ty a d q)
  moveCtor ty a d q := fatalM (P.moveCtor ty a d q)
  dtor ty a p := fatalM (P.dtor ty a p)
  block := P.block

/-- Every exception that leaves `m` is one of `E`. -/
def Throws (E : Exn → Prop) (m : M σ α) : Prop := ∀ s e s', m s = .threw e s' → E e

/-- Constructors and assignment operators throw only exceptions of `E`; destructors throw anything. -/
structure ThrowsT (E : Exn → Prop) (T : TOps σ A X) : Prop where
  make : ∀ a d xs, Throws E (T.make a d xs)
  copyCtor : ∀ a d q, Throws E (T.copyCtor a d q)
  moveCtor : ∀ a d q, Throws E (T.moveCtor a d q)
  copyAssign : ∀ d q, Throws E (T.copyAssign d q)
  moveAssign : ∀ d q, Throws E (T.moveAssign d q)
  assignArg : ∀ d x, Throws E (T.assignArg d x)

/-- The same for derived types. -/
structure ThrowsP (E : Exn → Prop) (P : POps σ A Ty X) : Prop where
  make : ∀ ty a d xs, Throws E (P.make ty a d xs)
  copyCtor : ∀ ty a d q, Throws E (P.copyCtor ty a d q)
  moveCtor : ∀ ty a d q, Throws E (P.moveCtor ty a d q)

/-- Functions of a class that are not allowed to throw, whatever the allocator is. -/
def NeverThrows {L V : Type} : Op L A V X → Prop
  | .destroy _ | .swap .. | .friendSwap .. | .valueless _ | .getAllocator _ | .deref _ | .arrow _ => True
  | _ => False

/-- The same for `polymorphic`. -/
def NeverThrowsP {L V : Type} : POp L A Ty V X → Prop
  | .destroy _ | .swap .. | .friendSwap .. | .valueless _ | .getAllocator _ | .deref _ | .arrow _ => True
  | _ => False

/-- The control block is constructed in the default way. -/
def DefaultBlock (P : POps σ A Ty X) : Prop := ∀ a q m, P.block a q m = m

end

section
variable {L A R B X Ty α : Type}

/-- If `m` returns then no allocation was refused meanwhile. -/
def Supplied (m : M (St L A R B) α) : Prop :=
  ∀ s a s', m s = .ok a s' → s'.env = s.env ∧ s.ai ≤ s'.ai ∧ ∀ i, s.ai ≤ i → i < s'.ai → s.env.fail i = false

/-- The functions of the type return only if none of their own allocations was refused. -/
structure SuppliedT (T : TOps (St L A R B) A X) : Prop where
  make : ∀ a d xs, Supplied (T.make a d xs)
  copyCtor : ∀ a d q, Supplied (T.copyCtor a d q)
  moveCtor : ∀ a d q, Supplied (T.moveCtor a d q)
  copyAssign : ∀ d q, Supplied (T.copyAssign d q)
  moveAssign : ∀ d q, Supplied (T.moveAssign d q)
  assignArg : ∀ d x, Supplied (T.assignArg d x)
  dtor : ∀ a p, Supplied (T.dtor a p)

/-- The same for derived types. -/
structure SuppliedP (P : POps (St L A R B) A Ty X) : Prop where
  make : ∀ ty a d xs, Supplied (P.make ty a d xs)
  copyCtor : ∀ ty a d q, Supplied (P.copyCtor ty a d q)
  moveCtor : ∀ ty a d q, Supplied (P.moveCtor ty a d q)
  dtor : ∀ ty a p, Supplied (P.dtor ty a p)

end
end Verif.Spec.Passing
