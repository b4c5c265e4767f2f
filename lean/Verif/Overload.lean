/-!
# Which function a one-argument construction or an assignment selects

The converting templates `indirect(U&&)`, `operator=(U&&)` and `polymorphic(U&&)` compete with the copy and
move functions.  This module models that competition: deduction of `U` for a forwarding reference
([temp.deduct.call]/3), the constraints written in the headers, viability of reference bindings
([over.viable], [dcl.init.ref]) and the ranking of the candidates ([over.match.best], [over.ics.rank]).

An argument is an expression: a type, its cv-qualification and whether it is an lvalue.  The set of types is
an arbitrary type `B`; which of them the owned type can be constructed or assigned from is arbitrary.

Simplifications: arguments convert to the class only by being of the class or of a class derived from it
(no conversion functions of the argument); braced initializers are not modelled; access control and
ambiguous bases are not modelled.
-/

set_option autoImplicit false

namespace Verif
namespace Overload

/-- An argument expression. -/
structure Arg (B : Type) where
  ty : B
  isConst : Bool
  isVolatile : Bool
  /-- lvalue, as opposed to xvalue or prvalue -/
  isLvalue : Bool

/-- The type deduced for the template parameter `U`. -/
structure UType (B : Type) where
  ty : B
  isConst : Bool
  isVolatile : Bool
  /-- `U` is an lvalue reference to the (cv-qualified) type -/
  isRef : Bool
  deriving DecidableEq

/-- Deduction for a parameter `U&&`: `cv B&` for an lvalue, `cv B` for an rvalue ([temp.deduct.call]/3). -/
def deduce {B : Type} (x : Arg B) : UType B := ⟨x.ty, x.isConst, x.isVolatile, x.isLvalue⟩

/-- `std::remove_cvref_t<U>`; also `remove_cv<remove_reference<U>>`. -/
def removeCvref {B : Type} (u : UType B) : UType B := ⟨u.ty, false, false, false⟩

/-- `std::remove_cv_t<U>`: a reference has no top-level cv-qualification to remove. -/
def removeCv {B : Type} (u : UType B) : UType B := if u.isRef then u else ⟨u.ty, false, false, false⟩

/-- The type `b` itself. -/
def plain {B : Type} (b : B) : UType B := ⟨b, false, false, false⟩

/-- The types that play a role and what is known about them. -/
structure Types (B : Type) where
  /-- the specialization of `indirect` or `polymorphic` -/
  self : B
  /-- the owned type (`indirect`) or base class (`polymorphic`) -/
  owned : B
  /-- `std::in_place_t`, `xyz::in_place_t` -/
  inPlace : B
  /-- the class is derived from `self` -/
  fromSelf : B → Bool
  /-- `std::derived_from<·, T>`, `std::is_base_of<T, ·>` -/
  fromOwned : B → Bool
  /-- `std::constructible_from<T, U>` -/
  constructible : UType B → Bool
  /-- `std::assignable_from<T&, U>` -/
  assignable : UType B → Bool
  /-- `std::copy_constructible<·>` -/
  copyable : B → Bool
  /-- `std::constructible_from<T>` -/
  defaultConstructible : Bool
  /-- `std::default_initializable<A>` -/
  allocDefault : Bool

/-- The functions that compete. -/
inductive Fn where
  /-- `indirect(const indirect&)`, `operator=(const indirect&)` -/
  | copy
  /-- `indirect(indirect&&)`, `operator=(indirect&&)` -/
  | move
  /-- the template with the parameter `U&&` -/
  | forward
  /-- `indirect(std::in_place_t, Us&&...)` without further arguments -/
  | inPlace
  deriving DecidableEq, Repr

/-- How a parameter is initialized from the argument. -/
structure Init where
  /-- a derived-to-base conversion is needed -/
  toBase : Bool
  /-- the parameter is a reference -/
  isRef : Bool
  /-- it is an rvalue reference -/
  isRvalueRef : Bool
  /-- cv-qualification of the type referred to -/
  isConst : Bool
  isVolatile : Bool

section
variable {B : Type} [DecidableEq B]

/-- Binding of a `const Self&` parameter: to lvalues and rvalues of the class and classes derived from it, unless
that would drop `volatile` ([dcl.init.ref]/5). -/
def bindCopy (t : Types B) (x : Arg B) : Option Init :=
  if (x.ty = t.self ∨ t.fromSelf x.ty = true) ∧ x.isVolatile = false then
    some ⟨x.ty ≠ t.self, true, false, true, false⟩
  else none

/-- Binding of a `Self&&` parameter: to rvalues, unless that would drop a qualifier. -/
def bindMove (t : Types B) (x : Arg B) : Option Init :=
  if (x.ty = t.self ∨ t.fromSelf x.ty = true) ∧ x.isConst = false ∧ x.isVolatile = false ∧ x.isLvalue = false then
    some ⟨x.ty ≠ t.self, true, true, false, false⟩
  else none

/-- Binding of a forwarding reference: always, to exactly the type of the argument. -/
def bindForward (x : Arg B) : Init := ⟨false, true, !x.isLvalue, x.isConst, x.isVolatile⟩

/-- Initialization of a parameter of type `std::in_place_t`. -/
def bindInPlace (t : Types B) (x : Arg B) : Option Init :=
  if x.ty = t.inPlace ∧ x.isVolatile = false then some ⟨false, false, false, false, false⟩ else none

/-- One initialization is better than another ([over.ics.rank]): no derived-to-base conversion before one
(/4.4); for an rvalue argument an rvalue reference before an lvalue reference (/3.2.3); otherwise, of two
references to types that differ only in qualification, the less qualified (/3.2.6). -/
def better (x : Arg B) (a b : Init) : Bool :=
  if a.toBase != b.toBase then b.toBase
  else if a.isRef && b.isRef then
    if !x.isLvalue && a.isRvalueRef != b.isRvalueRef then a.isRvalueRef
    else
      (!a.isConst || b.isConst) && (!a.isVolatile || b.isVolatile) &&
        (a.isConst != b.isConst || a.isVolatile != b.isVolatile)
  else false

/-- Functions that are not templates. -/
def nonTemplate : Fn → Bool
  | .copy => true
  | .move => true
  | .forward => false
  | .inPlace => false

/-- One candidate is a better match than another ([over.match.best]/2): its argument's initialization is
better, or neither is and it is not a template while the other is. -/
def beats (x : Arg B) (f : Fn) (a : Init) (g : Fn) (b : Init) : Bool :=
  better x a b || (!better x b a && nonTemplate f && !nonTemplate g)

/-- The candidates. -/
def all : List Fn := [.copy, .move, .forward, .inPlace]

/-- Initialization of the parameter of each viable candidate, given whether the template's constraints hold
and whether there is a constructor with a tag. -/
def viable (t : Types B) (forwardOk inPlaceOk : Bool) (x : Arg B) : Fn → Option Init
  | .copy => bindCopy t x
  | .move => bindMove t x
  | .forward => if forwardOk then some (bindForward x) else none
  | .inPlace => if inPlaceOk then bindInPlace t x else none

/-- `f` is viable and better than every other viable candidate. -/
def isBest (t : Types B) (forwardOk inPlaceOk : Bool) (x : Arg B) (f : Fn) : Bool :=
  match viable t forwardOk inPlaceOk x f with
  | none => false
  | some a => all.all fun g =>
      g == f || match viable t forwardOk inPlaceOk x g with
        | none => true
        | some b => beats x f a g b

/-- Overload resolution: the best viable candidate, if there is one; otherwise the program is ill-formed. -/
def select (t : Types B) (forwardOk inPlaceOk : Bool) (x : Arg B) : Option Fn :=
  all.find? (isBest t forwardOk inPlaceOk x)

/-! ### The constraints in the headers -/

/-- `indirect(U&&)`, indirect.h:103-110. -/
def indirectCtor (t : Types B) (u : UType B) : Bool :=
  !(removeCvref u == plain t.self) && !(removeCvref u == plain t.inPlace) && t.constructible u && t.allocDefault

/-- `indirect(allocator_arg_t, const A&, U&&)`, indirect.h:150-157. -/
def indirectCtorA (t : Types B) (u : UType B) : Bool :=
  !(removeCvref u == plain t.self) && !(removeCvref u == plain t.inPlace) && t.constructible u

/-- `operator=(U&&)`, indirect.h:294-298. -/
def indirectAssign (t : Types B) (u : UType B) : Bool :=
  !(removeCvref u == plain t.self) && t.constructible u && t.assignable u

/-- `indirect(U&&)` and `indirect(allocator_arg_t, const A&, U&&)`, indirect_cxx14.h:125-155. -/
def indirectCtor14 (t : Types B) (u : UType B) : Bool :=
  (plain t.owned == removeCvref u) && !(removeCvref u == plain t.inPlace)

/-- `operator=(U&&)`, indirect_cxx14.h:303-308: `remove_cv_t` is applied to `U` without removing the reference
first. -/
def indirectAssign14 (t : Types B) (u : UType B) : Bool :=
  t.constructible u && t.assignable u && !(removeCv u == plain t.self)

/-- `polymorphic(U&&)`, polymorphic.h:162-168. -/
def polymorphicCtor (t : Types B) (u : UType B) : Bool :=
  !(plain t.self == removeCvref u) && t.copyable (removeCvref u).ty && t.fromOwned (removeCvref u).ty &&
    t.allocDefault

/-- `polymorphic(allocator_arg_t, const A&, U&&)`, polymorphic.h:210-217; `polymorphic(U&&)` and
`polymorphic(allocator_arg_t, const A&, U&&)`, polymorphic_cxx14.h:273-316. -/
def polymorphicCtorA (t : Types B) (u : UType B) : Bool :=
  !(plain t.self == removeCvref u) && t.copyable (removeCvref u).ty && t.fromOwned (removeCvref u).ty

/-! ### The expressions -/

/-- `indirect<T, A> y(x)`, indirect.h. -/
def constructs (t : Types B) (x : Arg B) : Option Fn :=
  select t (indirectCtor t (deduce x)) (t.defaultConstructible && t.allocDefault) x

/-- `indirect<T, A> y(std::allocator_arg, a, x)`, indirect.h.  The constructors with a tag are
indirect.h:168-174. -/
def constructsA (t : Types B) (x : Arg B) : Option Fn :=
  select t (indirectCtorA t (deduce x)) t.defaultConstructible x

/-- `y = x`, indirect.h. -/
def assigns (t : Types B) (x : Arg B) : Option Fn := select t (indirectAssign t (deduce x)) false x

/-- `indirect<T, A> y(x)`, indirect_cxx14.h. -/
def constructs14 (t : Types B) (x : Arg B) : Option Fn :=
  select t (indirectCtor14 t (deduce x)) (t.defaultConstructible && t.allocDefault) x

/-- `indirect<T, A> y(std::allocator_arg, a, x)`, indirect_cxx14.h. -/
def constructsA14 (t : Types B) (x : Arg B) : Option Fn :=
  select t (indirectCtor14 t (deduce x)) t.defaultConstructible x

/-- `y = x`, indirect_cxx14.h. -/
def assigns14 (t : Types B) (x : Arg B) : Option Fn := select t (indirectAssign14 t (deduce x)) false x

/-- `polymorphic<T, A> y(x)`, polymorphic.h.  The constructors with a tag take `in_place_type_t<U>`, a
different type for every `U`; they are not modelled. -/
def constructsP (t : Types B) (x : Arg B) : Option Fn := select t (polymorphicCtor t (deduce x)) false x

/-- `polymorphic<T, A> y(std::allocator_arg, a, x)`, polymorphic.h, and both forms in polymorphic_cxx14.h. -/
def constructsPA (t : Types B) (x : Arg B) : Option Fn := select t (polymorphicCtorA t (deduce x)) false x

/-- `y = x` for `polymorphic`: there is no template (polymorphic.h:279-337, polymorphic_cxx14.h:359-415). -/
def assignsP (t : Types B) (x : Arg B) : Option Fn := select t false false x

end
end Overload
end Verif
