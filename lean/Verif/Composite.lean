import Verif.PolymorphicOps
import Verif.Indirect14

/-!
# Classes with `indirect` or `polymorphic` members

`compile_checks/indirect_as_member.cc` (struct `Composite`), `compile_checks/polymorphic_as_member.cc` and the pimpl
classes `compile_checks/indirect_pimpl.cc:10-18`, `compile_checks/polymorphic_pimpl.cc` have members of these types and
special member functions that are defaulted or implicit.  This file models such a class, for any number of members.

Modelled are the rules of C++ for defaulted special member functions: members are constructed in declaration order,
and if a constructor throws, those already constructed are destroyed in reverse order; assignment is memberwise in
declaration order; members are destroyed in reverse order.  Each member function of a member is the unchanged
definition from the model of the header.
Simplifications: an object is only its members, so that an object without members is not seen to be alive; all members
have the same allocator type; member functions run in an environment each.
-/

set_option autoImplicit false

namespace Verif

/-- The functions of a class template that special members of an enclosing class use.  `L` locations, `S` states,
`I` arguments of a constructor, `F` operations of client code on the owned object, `W` owned objects. -/
structure Holder (L S W I F : Type) where
  /-- value construction, by a member initializer or default member initializer -/
  make : L → I → Env → M S Unit
  copy : L → L → Env → M S Unit
  move : L → L → Env → M S Unit
  assignCopy : L → L → Env → M S Unit
  assignMove : L → L → Env → M S Unit
  destroy : L → Env → M S Unit
  /-- `impl_->do_something()` -/
  modify : L → F → Env → M S Unit
  /-- what the operation does to the owned object -/
  app : F → W → W
  /-- `std::is_nothrow_move_constructible` of the class -/
  nothrowMove : Bool

namespace Holder
section
variable {L A R V X Ty : Type} [DecidableEq L] [DecidableEq R] [DecidableEq Ty]

/-- The constructor for given arguments. -/
def ctorOf : TArgs X → Ctor L X
  | .none => .default
  | .pack xs => .inPlace xs
  | .ilist l xs => .ilist l xs

/-- Execute a call and forget its result. -/
def ofCall {S O : Type} (r : S → Res S O) : M S Unit := fun s =>
  match r s with
  | .ok _ s' => .ok () s'
  | .threw e s' => .threw e s'
  | .terminated => .terminated
  | .ub u => .ub u
  | .diverged => .diverged

/-- Members of type `indirect<T, A>` of indirect.h.  The move constructor is noexcept if the allocators are always equal
(indirect.h:137-138). -/
def indirect (tr : ATraits A R) (T : TSpec V X) :
    Holder L (St L A R (Obj V)) V (Option A × TArgs X) (V → V) where
  make x i e := ofCall (Indirect.call tr (plain T) (.make x i.1 (ctorOf i.2)) e)
  copy x y e := ofCall (Indirect.call tr (plain T) (.copy x y) e)
  move x y e := ofCall (Indirect.call tr (plain T) (.move x y) e)
  assignCopy x y e := ofCall (Indirect.call tr (plain T) (.assignCopy x y) e)
  assignMove x y e := ofCall (Indirect.call tr (plain T) (.assignMove x y) e)
  destroy x e := ofCall (Indirect.call tr (plain T) (.destroy x) e)
  modify x f e := ofCall (Indirect.call tr (plain T) (.modify x f) e)
  app f v := f v
  nothrowMove := tr.alwaysEqual

/-- Members of type `indirect<T, A>` of indirect_cxx14.h; noexcept: indirect_cxx14.h:233. -/
def indirect14 (tr : ATraits A R) (T : TSpec V X) :
    Holder L (St L A R (Obj V)) V (Option A × TArgs X) (V → V) where
  make x i e := ofCall (Indirect14.call tr (plain T) (.make x i.1 (ctorOf i.2)) e)
  copy x y e := ofCall (Indirect14.call tr (plain T) (.copy x y) e)
  move x y e := ofCall (Indirect14.call tr (plain T) (.move x y) e)
  assignCopy x y e := ofCall (Indirect14.call tr (plain T) (.assignCopy x y) e)
  assignMove x y e := ofCall (Indirect14.call tr (plain T) (.assignMove x y) e)
  destroy x e := ofCall (Indirect14.call tr (plain T) (.destroy x) e)
  modify x f e := ofCall (Indirect14.call tr (plain T) (.modify x f) e)
  app f v := f v
  nothrowMove := tr.alwaysEqual

/-- The constructor for a given type and arguments. -/
def pctorOf : Option Ty → TArgs X → PCtor L Ty X
  | none, _ => .default
  | some ty, .none => .inPlace ty []
  | some ty, .pack xs => .inPlace ty xs
  | some ty, .ilist l xs => .ilist ty l xs

/-- Members of type `polymorphic<T, A>` of polymorphic.h.  Constructor arguments: an allocator or none, and a type to
construct in place with arguments or none for the default constructor.  Noexcept: polymorphic.h:195-196. -/
def polymorphic (tr : ATraits A R) (P : PSpec Ty V X) :
    Holder L (St L A R (PBody Ty V)) (Ty × V) (Option A × Option Ty × TArgs X) (Ty → V → V) where
  make x i e := ofCall (Polymorphic.call tr (plainP P) (.make x i.1 (pctorOf i.2.1 i.2.2)) e)
  copy x y e := ofCall (Polymorphic.call tr (plainP P) (.copy x y) e)
  move x y e := ofCall (Polymorphic.call tr (plainP P) (.move x y) e)
  assignCopy x y e := ofCall (Polymorphic.call tr (plainP P) (.assignCopy x y) e)
  assignMove x y e := ofCall (Polymorphic.call tr (plainP P) (.assignMove x y) e)
  destroy x e := ofCall (Polymorphic.call tr (plainP P) (.destroy x) e)
  modify x f e := ofCall (Polymorphic.call tr (plainP P) (.modify x f) e)
  app f w := (w.1, f w.1 w.2)
  nothrowMove := tr.alwaysEqual

end
end Holder

namespace Composite
section
variable {C S W I F : Type}

/-- The member functions of the members: member `k` of every object is of type `H k`. -/
abbrev Members (C S W I F : Type) := Nat → Holder (C × Nat) S W I F

/-- Members constructed in order; if one throws, those before it are destroyed. -/
def build (f : Nat → M S Unit) (undo : Nat → M S Unit) : Nat → M S Unit
  | 0 => pure ()
  | k + 1 => do
    build f undo k
    M.onThrow (f k) (undo k)

/-- Something done to the members in order. -/
def each (f : Nat → M S Unit) : Nat → M S Unit
  | 0 => pure ()
  | k + 1 => do
    each f k
    f k

variable (H : Members C S W I F) (K : Nat)

/-- The members `k-1, …, 0` of `x` are destroyed. -/
def dropAll (x : C) (es : Nat → Env) : Nat → M S Unit
  | 0 => pure ()
  | k + 1 => do
    (H k).destroy (x, k) (es k)
    dropAll x es k

/-- What programs do with objects of such a class. -/
inductive COp (C I F : Type) where
  /-- a constructor with a member initializer for each member (indirect_pimpl.cc:10) -/
  | make (x : C) (is : Nat → I)
  | copy (x y : C)
  | move (x y : C)
  | destroy (x : C)
  | assignCopy (x y : C)
  | assignMove (x y : C)
  /-- a member function that works on the object owned by member `k` (indirect_pimpl.cc:18) -/
  | modify (x : C) (k : Nat) (f : F)

/-- One operation on objects of a class with `K` members: the constructors, destructor and assignments are
`Class::Class(const Class&) = default` etc. (indirect_pimpl.cc:12-16), or implicit (indirect_as_member.cc:10-15).
`es k` is the environment in which the function of member `k` runs. -/
def call (o : COp C I F) (es : Nat → Env) : M S Unit :=
  match o with
  | .make x is => build (fun k => (H k).make (x, k) (is k) (es k)) (dropAll H x es) K
  | .copy x y => build (fun k => (H k).copy (x, k) (y, k) (es k)) (dropAll H x es) K
  | .move x y => build (fun k => (H k).move (x, k) (y, k) (es k)) (dropAll H x es) K
  | .destroy x => dropAll H x es K
  | .assignCopy x y => each (fun k => (H k).assignCopy (x, k) (y, k) (es k)) K
  | .assignMove x y => each (fun k => (H k).assignMove (x, k) (y, k) (es k)) K
  | .modify x k f => (H k).modify (x, k) f (es k)

end
end Composite
end Verif
