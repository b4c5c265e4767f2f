import Verif.Access
import Verif.Overload

/-!
# What owners hand to the constructors of the owned type

A copy of an owner constructs an owned object from the source's, and what constructor the owned type selects for that depends on what kind of
expression it is given: const or not, lvalue or rvalue.  This module has, for every place in the headers where an owned
object is constructed or assigned from another, the expression that is written there, as a chain of accesses
(`Verif/Access.lean`) from the parameter `other`; and the selection among the constructors of the owned type, with the
ranking of `Verif/Overload.lean`.

Simplifications: objects are not volatile; of the constructors of the owned type only those that can take one argument of
the type itself are considered, at most one template among them; how the template is constrained is arbitrary.  The owned type is not a const type.
-/

set_option autoImplicit false

namespace Verif
namespace Source
open Access (Step Expr follow)
open Overload (Arg Init)

/-- The class templates. -/
inductive Owner where
  /-- indirect.h, indirect_cxx14.h -/
  | indirect
  /-- polymorphic.h, polymorphic_cxx14.h -/
  | polymorphic
  deriving DecidableEq, Repr

/-- Where an owned object is made from another, or assigned. -/
inductive Place where
  /-- copy construction, with and without an allocator -/
  | copyConstruct
  /-- copy assignment that constructs a new object -/
  | copyAssignNew
  /-- copy assignment to the existing object; only `indirect` -/
  | copyAssignOld
  /-- move construction with an allocator that is not equal -/
  | moveConstruct
  /-- move assignment with an allocator that is not equal -/
  | moveAssignNew
  deriving DecidableEq, Repr

/-- The name of the parameter as an expression: `const owner& other` or `owner&& other`.  A name is an lvalue. -/
def other : Place → Expr
  | .copyConstruct => ⟨true, true⟩
  | .copyAssignNew => ⟨true, true⟩
  | .copyAssignOld => ⟨true, true⟩
  | .moveConstruct => ⟨false, true⟩
  | .moveAssignNew => ⟨false, true⟩

/-- `other.cb_->clone(…)` or `other.cb_->move(…)`, and in it `storage_.u_`: the functions are not const (polymorphic.h:58-59, 85, 97;
polymorphic_cxx14.h:113-114, 140, 152). -/
def throughBlock : List Step := [.member false, .pointer, .member false, .member false]

/-- What is done with `other`; `polymorphic` never assigns to the object it has. -/
def written : Owner → Place → Option (List Step)
  /- `*other`: indirect.h:194, indirect_cxx14.h:206 -/
  | .indirect, .copyConstruct => some [.star .indirect false]
  /- `*other.p_`: indirect.h:249, indirect_cxx14.h:259 -/
  | .indirect, .copyAssignNew => some [.member false, .pointer]
  /- `*other`: indirect.h:244, indirect_cxx14.h:253 -/
  | .indirect, .copyAssignOld => some [.star .indirect false]
  /- `std::move(*other)`: indirect.h:210, indirect_cxx14.h:225 -/
  | .indirect, .moveConstruct => some [.star .indirect false, .move]
  /- `std::move(*other.p_)`: indirect.h:283, indirect_cxx14.h:292 -/
  | .indirect, .moveAssignNew => some [.member false, .pointer, .move]
  /- polymorphic.h:244, polymorphic_cxx14.h:320 -/
  | .polymorphic, .copyConstruct => some throughBlock
  /- polymorphic.h:295, polymorphic_cxx14.h:373 -/
  | .polymorphic, .copyAssignNew => some throughBlock
  | .polymorphic, .copyAssignOld => none
  /- polymorphic.h:261, polymorphic_cxx14.h:345 -/
  | .polymorphic, .moveConstruct => some (throughBlock ++ [.move])
  /- polymorphic.h:327, polymorphic_cxx14.h:404 -/
  | .polymorphic, .moveAssignNew => some (throughBlock ++ [.move])

/-- The expression that is given to `construct_from` or `construct`, or assigned. -/
def given (o : Owner) (p : Place) : Option Expr := (written o p).bind fun ss => follow ss (other p)

/-- `std::forward<U>(u)` for a parameter `U&& u`: `static_cast<U&&>(u)`. -/
def forwarded {B : Type} (u : Overload.UType B) : Arg B := ⟨u.ty, u.isConst, u.isVolatile, u.isRef⟩

/-- An argument handed on by a number of functions with parameters `Ts&&... ts` that call the next with `std::forward<Ts>(ts)...`: `construct_from` and
`allocator_traits::construct` (indirect.h:443-454, indirect_cxx14.h:555-566), also the constructor of the control block (polymorphic.h:77-83,
polymorphic_cxx14.h:132-138). -/
def handedOn {B : Type} : Nat → Arg B → Arg B
  | 0, x => x
  | k + 1, x => handedOn k (forwarded (Overload.deduce x))

/-! ### The owned type -/

/-- Functions of the owned type that can take an object of it: constructors or assignment operators. -/
inductive Fn where
  /-- `T(const T&)` -/
  | copy
  /-- `T(T&)` -/
  | modify
  /-- `T(T&&)` -/
  | move
  /-- `T(U&&)`, a template -/
  | template
  deriving DecidableEq, Repr

/-- Which of them the class has, and for which of its own objects the template is not excluded by its constraints. -/
structure Class where
  hasCopy : Bool
  hasModify : Bool
  hasMove : Bool
  accepts : Expr → Bool

/-- Initialization of the parameter, if the function is viable ([dcl.init.ref]). -/
def viable (c : Class) (e : Expr) : Fn → Option Init
  | .copy => if c.hasCopy then some ⟨false, true, false, true, false⟩ else none
  | .modify => if c.hasModify && !e.isConst && e.isLvalue then some ⟨false, true, false, false, false⟩ else none
  | .move => if c.hasMove && !e.isConst && !e.isLvalue then some ⟨false, true, true, false, false⟩ else none
  | .template => if c.accepts e then some ⟨false, true, !e.isLvalue, e.isConst, false⟩ else none

/-- One candidate is better than another ([over.match.best]/2). -/
def beats (e : Expr) (f : Fn) (a : Init) (g : Fn) (b : Init) : Bool :=
  let x : Arg Unit := ⟨(), e.isConst, false, e.isLvalue⟩
  Overload.better x a b || (!Overload.better x b a && f != .template && g == .template)

/-- The functions. -/
def all : List Fn := [.copy, .modify, .move, .template]

/-- Viable, and better than every other that is. -/
def isBest (c : Class) (e : Expr) (f : Fn) : Bool :=
  match viable c e f with
  | none => false
  | some a => all.all fun g =>
      g == f || match viable c e g with
        | none => true
        | some b => beats e f a g b

/-- The function that is selected for an argument. -/
def select (c : Class) (e : Expr) : Option Fn := all.find? (isBest c e)

/-- The function of the owned type that is called. -/
def calls (o : Owner) (p : Place) (c : Class) : Option Fn := (given o p).bind (select c)

end Source
end Verif
