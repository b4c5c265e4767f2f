import Verif.Overload

/-!
# Class template argument deduction for `indirect`

Which specialization of `indirect` do `indirect y(x);` and `indirect y(std::allocator_arg, a, x);` declare?  The candidates are
the two deduction guides of the header, one guide per constructor, and the copy deduction candidate
([over.match.class.deduct]); the best is found by overload resolution ([over.match.best]).

Simplifications: function types, references to functions and braced initializers are not modelled; a class has at most one
base class that is a specialization of `indirect`; arguments convert only by being of a class or of a class derived from it.
-/

set_option autoImplicit false

namespace Verif
namespace Deduction
open Overload (Arg Init better)

/-- Types without top-level cv-qualification.  `B` are names of other types and of allocator templates. -/
inductive Ty (B : Type) where
  /-- any other type -/
  | base (b : B)
  /-- pointer to a (const or volatile) type -/
  | ptr (t : Ty B) (isConst isVolatile : Bool)
  /-- array -/
  | array (t : Ty B) (n : Nat)
  /-- an allocator for objects of type `t`: `std::allocator<t>` (`none`), or a specialization of the template `f` -/
  | alloc (f : Option B) (t : Ty B)
  /-- `indirect<t, a>` -/
  | indirect (t a : Ty B)
  deriving DecidableEq

/-- `std::allocator<t>`. -/
def stdAlloc {B : Type} (t : Ty B) : Ty B := .alloc none t

/-- `std::allocator_traits<a>::rebind_alloc<t>`, if `a` is an allocator. -/
def rebind {B : Type} (a t : Ty B) : Option (Ty B) :=
  match a with
  | .alloc f _ => some (.alloc f t)
  | _ => none

/-- `std::allocator_traits<a>::value_type`. -/
def valueType {B : Type} : Ty B → Option (Ty B)
  | .alloc _ t => some t
  | _ => none

/-- The type deduced for a parameter `Value` that is passed by value ([temp.deduct.call]/2): an array becomes a pointer to its
elements, which have the qualification of the array; otherwise cv-qualification is ignored. -/
def decay {B : Type} (x : Arg (Ty B)) : Ty B :=
  match x.ty with
  | .array t _ => .ptr t x.isConst x.isVolatile
  | t => t

/-- The base class of a type that is a specialization of `indirect`, if there is one: its arguments. -/
abbrev Bases (B : Type) := B → Option (Ty B × Ty B)

section
variable {B : Type} [DecidableEq B]

/-- `indirect<T, A>` of which the type is, or is derived from, and whether it is derived ([temp.deduct.call]/4.3). -/
def asIndirect (bases : Bases B) : Ty B → Option ((Ty B × Ty B) × Bool)
  | .indirect t a => some ((t, a), false)
  | .base b => (bases b).map fun p => (p, true)
  | _ => none

/-- The candidates. -/
inductive Cand where
  /-- the deduction guide in the header -/
  | guide
  /-- from the copy constructor -/
  | copy
  /-- from the move constructor -/
  | move
  /-- the copy deduction candidate -/
  | copyDeduction
  /-- from a constructor from which `T` cannot be deduced: those with `U&&` (indirect.h:103-110, 150-157) or tags -/
  | other
  deriving DecidableEq, Repr

/-- Is the template of the first candidate more specialized than that of the second?  Those that take an `indirect<T, A>` are
more specialized than the guides, which take anything ([temp.func.order]); among each other references are not considered. -/
def moreSpecialized : Cand → Cand → Bool
  | .copy, .guide => true
  | .move, .guide => true
  | .copyDeduction, .guide => true
  | _, _ => false

/-- A candidate that takes part: how the parameters are initialized, and the template arguments deduced. -/
structure Fit (B : Type) where
  inits : List Init
  args : Ty B × Ty B

/-- Pairs of initializations of the same parameter: is one of them better, and none worse? -/
def betterAll : List (Arg (Ty B)) → List Init → List Init → Bool
  | x :: xs, a :: as, b :: bs => !better x b a && betterAll xs as bs
  | _, _, _ => true

/-- Is the initialization of some parameter better? -/
def betterSome : List (Arg (Ty B)) → List Init → List Init → Bool
  | x :: xs, a :: as, b :: bs => better x a b || betterSome xs as bs
  | _, _, _ => false

/-- Is the first candidate better by its arguments? -/
def betterArgs (xs : List (Arg (Ty B))) (a b : List Init) : Bool := betterAll xs a b && betterSome xs a b

/-- One candidate is a better match than another ([over.match.best.general]/2): by its arguments; or else it is more
specialized; or else it is a deduction guide and the other is not; or else it is the copy deduction candidate. -/
def beats (xs : List (Arg (Ty B))) (f : Cand) (a : List Init) (g : Cand) (b : List Init) : Bool :=
  if betterArgs xs a b then true
  else if betterSome xs b a then false
  else if moreSpecialized f g then true
  else if moreSpecialized g f then false
  else if f = .guide then decide (g ≠ .guide)
  else if g = .guide then false
  else decide (f = .copyDeduction ∧ g ≠ .copyDeduction)

/-- All candidates. -/
def all : List Cand := [.guide, .copy, .move, .copyDeduction, .other]

/-- The specialization that is declared, or `none` if there is no best candidate. -/
def deduce (xs : List (Arg (Ty B))) (fit : Cand → Option (Fit B)) : Option (Ty B × Ty B) :=
  (all.findSome? fun f =>
    match fit f with
    | none => none
    | some a =>
      if all.all fun g => g == f || match fit g with
          | none => true
          | some b => beats xs f a.inits g b.inits
      then some a.args
      else none)

/-- A parameter passed by value, whose type is that of the argument. -/
def byValue : Init := ⟨false, false, false, false, false⟩

/-- The candidates for `indirect y(x)`: the guide (indirect.h:465-466, indirect_cxx14.h:574-575); the guides from
`indirect(const indirect&)` (indirect.h:129) and `indirect(indirect&&)` (indirect.h:137); the copy deduction candidate, which
takes an `indirect<T, A>` by value. -/
def fit1 (bases : Bases B) (x : Arg (Ty B)) : Cand → Option (Fit B)
  | .guide => some ⟨[byValue], (decay x, stdAlloc (decay x))⟩
  | .copy =>
    match asIndirect bases x.ty with
    | some (p, derived) => if x.isVolatile then none else some ⟨[⟨derived, true, false, true, false⟩], p⟩
    | none => none
  | .move =>
    match asIndirect bases x.ty with
    | some (p, derived) =>
      if x.isVolatile || x.isConst || x.isLvalue then none else some ⟨[⟨derived, true, true, false, false⟩], p⟩
    | none => none
  | .copyDeduction =>
    match asIndirect bases x.ty with
    | some (p, derived) => if x.isVolatile then none else some ⟨[⟨derived, false, false, false, false⟩], p⟩
    | none => none
  | .other => none

/-- `indirect y(x)`. -/
def declares (bases : Bases B) (x : Arg (Ty B)) : Option (Ty B × Ty B) := deduce [x] (fit1 bases x)

/-- A parameter `const A&` or `Alloc` for the allocator `a`. -/
def byConstRef : Init := ⟨false, true, false, true, false⟩

/-- The candidates for `indirect y(std::allocator_arg, a, x)`: the guide (indirect.h:468-470, indirect_cxx14.h:577-579), which
takes part if the type of `a` can be rebound; and the guides from `indirect(allocator_arg_t, const A&, const indirect&)`
(indirect.h:185) and `indirect(allocator_arg_t, const A&, indirect&&)` (indirect.h:197), for which the types of `a` and `x` must
agree on `A`. The copy deduction candidate has one parameter. -/
def fit3 (bases : Bases B) (a x : Arg (Ty B)) : Cand → Option (Fit B)
  | .guide => (rebind (decay a) (decay x)).map fun al => ⟨[byValue, byValue], (decay x, al)⟩
  | .copy =>
    match asIndirect bases x.ty with
    | some (p, derived) =>
      if x.isVolatile || a.isVolatile || p.2 != a.ty then none else some ⟨[byConstRef, ⟨derived, true, false, true, false⟩], p⟩
    | none => none
  | .move =>
    match asIndirect bases x.ty with
    | some (p, derived) =>
      if x.isVolatile || x.isConst || x.isLvalue || a.isVolatile || p.2 != a.ty then none
      else some ⟨[byConstRef, ⟨derived, true, true, false, false⟩], p⟩
    | none => none
  | .copyDeduction => none
  | .other => none

/-- `indirect y(std::allocator_arg, a, x)`. -/
def declaresA (bases : Bases B) (a x : Arg (Ty B)) : Option (Ty B × Ty B) := deduce [a, x] (fit3 bases a x)

end
end Deduction
end Verif
