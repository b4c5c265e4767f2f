import Verif.Source

/-!
# How users expect owned objects to be copied
-/

set_option autoImplicit false

namespace Verif.Spec
open Verif.Source

/-- `std::as_const(x)` for an object `x` of the owned type. -/
def constLvalue : Access.Expr := ⟨true, true⟩

/-- `std::move(x)` for an object `x` of the owned type. -/
def rvalue : Access.Expr := ⟨false, false⟩

/-- What the owned type would select for `T y(std::as_const(x))` or `T y(std::move(x))`, and likewise in assignments. -/
def expected (p : Place) (c : Class) : Option Source.Fn :=
  match p with
  | .moveConstruct => Source.select c rvalue
  | .moveAssignNew => Source.select c rvalue
  | _ => Source.select c constLvalue

/-- The owned type has no function that would take an object that may be modified in preference to a constant: neither `T(T&)` nor a template that
is not excluded for `T&`. -/
def Indifferent (c : Class) : Prop := c.hasModify = false ∧ c.accepts ⟨false, true⟩ = false

end Verif.Spec
