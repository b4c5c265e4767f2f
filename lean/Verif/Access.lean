/-!
# Access to owned objects: constness and value category

`operator*` and `operator->` are overloaded on the constness and the value category of the object they are called on.  This
module models which overload is selected ([over.match.funcs], [over.ics.rank]) and what kind of expression the call is, for
the accessors of all four headers, and chains of accesses of any length through members of classes.

Simplifications: only what matters for access is kept of a type, that is constness (objects are not volatile); which class an
expression has is not modelled, the chain says which accessor is called.
-/

set_option autoImplicit false

namespace Verif
namespace Access

/-- What kind of expression: is its type const, and is it an lvalue (or an rvalue)? -/
structure Expr where
  isConst : Bool
  isLvalue : Bool
  deriving DecidableEq, Repr

/-- The ref-qualifier of a member function. -/
inductive RefQual where
  | none
  | lvalue
  | rvalue
  deriving DecidableEq, Repr

/-- The qualifiers of a member function. -/
structure Quals where
  isConst : Bool
  ref : RefQual
  deriving DecidableEq, Repr

/-- May the function be called on the object?  A function that is not const only on objects that are not; one qualified `&`
only on lvalues, unless it is const; one qualified `&&` only on rvalues ([over.match.funcs.general]/4,5, [dcl.init.ref]). -/
def viable (o : Expr) (q : Quals) : Bool :=
  (q.isConst || !o.isConst) &&
    match q.ref with
    | .none => true
    | .lvalue => o.isLvalue || q.isConst
    | .rvalue => !o.isLvalue

/-- Is the first function a better match than the second?  For an rvalue, one qualified `&&` is better than one qualified `&`
([over.ics.rank]/3.2.3); otherwise the one that is not const (3.2.6). -/
def better (o : Expr) (q r : Quals) : Bool :=
  if !o.isLvalue && q.ref == .rvalue && r.ref == .lvalue then true
  else if !o.isLvalue && q.ref == .lvalue && r.ref == .rvalue then false
  else !q.isConst && r.isConst

/-- Overload resolution among the declared functions: the one that is viable and better than all others that are. -/
def select {α : Type} (fs : List (Quals × α)) (o : Expr) : Option α :=
  (fs.find? fun f => viable o f.1 && fs.all fun g => g.1 == f.1 || !viable o g.1 || better o f.1 g.1).map (·.2)

/-! ## The accessors -/

/-- The return type of `operator*`: a reference to a `T` or a `const T`. -/
structure RefTo where
  isConst : Bool
  isLvalue : Bool
  deriving DecidableEq, Repr

/-- The return type of `operator->`: `pointer` or `const_pointer`. -/
structure PtrTo where
  isConst : Bool
  deriving DecidableEq, Repr

/-- `operator*`, indirect.h:311-329 and indirect_cxx14.h:317-335. -/
def starI : List (Quals × RefTo) :=
  [(⟨true, .lvalue⟩, ⟨true, true⟩), (⟨false, .lvalue⟩, ⟨false, true⟩), (⟨false, .rvalue⟩, ⟨false, false⟩),
   (⟨true, .rvalue⟩, ⟨true, false⟩)]

/-- `operator->`, indirect.h:331-339 and indirect_cxx14.h:337-345. -/
def arrowI : List (Quals × PtrTo) := [(⟨true, .none⟩, ⟨true⟩), (⟨false, .none⟩, ⟨false⟩)]

/-- `operator*`, polymorphic.h:353-361 and polymorphic_cxx14.h:427-435. -/
def starP : List (Quals × RefTo) := [(⟨false, .none⟩, ⟨false, true⟩), (⟨true, .none⟩, ⟨true, true⟩)]

/-- `operator->`, polymorphic.h:343-351 and polymorphic_cxx14.h:417-425. -/
def arrowP : List (Quals × PtrTo) := [(⟨false, .none⟩, ⟨false⟩), (⟨true, .none⟩, ⟨true⟩)]

/-- The class templates. -/
inductive Kind where
  | indirect
  | polymorphic
  deriving DecidableEq, Repr

/-- `operator*` of the template. -/
def starOf : Kind → List (Quals × RefTo)
  | .indirect => starI
  | .polymorphic => starP

/-- `operator->` of the template. -/
def arrowOf : Kind → List (Quals × PtrTo)
  | .indirect => arrowI
  | .polymorphic => arrowP

/-! ## Chains of accesses -/

/-- A step from an expression to another. -/
inductive Step where
  /-- `*e`, for an `indirect<T>` or `polymorphic<T>`; `c`: is `T` a const type? -/
  | star (k : Kind) (c : Bool)
  /-- the object that `e->` refers to -/
  | arrow (k : Kind) (c : Bool)
  /-- `e.m`, for a member that is neither `mutable` nor a reference; `c`: is it declared const? -/
  | member (c : Bool)
  /-- `std::move(e)` -/
  | move
  /-- `std::as_const(e)` (of an lvalue) -/
  | asConst
  /-- `e.m` for a `mutable` member -/
  | mutableMember
  /-- `*e` for a built-in pointer to an object that is not const, or a `std::unique_ptr` -/
  | pointer
  deriving DecidableEq, Repr

/-- The expression after a step, if it compiles. -/
def Step.apply : Step → Expr → Option Expr
  | .star k c, e => (select (starOf k) e).map fun r => ⟨r.isConst || c, r.isLvalue⟩
  | .arrow k c, e => (select (arrowOf k) e).map fun r => ⟨r.isConst || c, true⟩
  | .member c, e => some ⟨e.isConst || c, e.isLvalue⟩
  | .move, e => some ⟨e.isConst, false⟩
  | .asConst, e => if e.isLvalue then some ⟨true, true⟩ else none
  | .mutableMember, e => some ⟨false, e.isLvalue⟩
  | .pointer, _ => some ⟨false, true⟩

/-- The expression at the end of a chain of steps. -/
def follow : List Step → Expr → Option Expr
  | [], e => some e
  | s :: ss, e =>
    match s.apply e with
    | some e' => follow ss e'
    | none => none

/-! ## Members that can be called -/

/-- The other members and friends that are called on an `indirect` or `polymorphic`. -/
inductive Member where
  | valuelessAfterMove
  | getAllocator
  | copyAssign
  | moveAssign
  | forwardAssign
  | swap
  deriving DecidableEq, Repr

/-- How they are qualified: indirect.h:341-345 (`const`), 228-305 and 351-366; polymorphic.h:363-367 (`const`), 279-337 and
373-388; likewise indirect_cxx14.h and polymorphic_cxx14.h. -/
def Member.quals : Member → Quals
  | .valuelessAfterMove => ⟨true, .none⟩
  | .getAllocator => ⟨true, .none⟩
  | .copyAssign => ⟨false, .none⟩
  | .moveAssign => ⟨false, .none⟩
  | .forwardAssign => ⟨false, .none⟩
  | .swap => ⟨false, .none⟩

/-- May the member be called on the expression? -/
def callable (e : Expr) (m : Member) : Bool := viable e m.quals

end Access
end Verif
