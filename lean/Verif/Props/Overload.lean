import Verif.Overload

/-!
# C49: the forwarding templates and copies and moves

For every argument that is an object of the class itself - whatever its cv-qualification and value category,
whatever the owned type can be constructed or assigned from - copy and move construction and assignment
select the copy or move function.  The exception is `operator=` of indirect_cxx14.h, see the end.
-/

set_option autoImplicit false
set_option linter.unusedSimpArgs false

namespace Verif.Props
open Verif.Overload

section
variable {B : Type} [DecidableEq B]

/-- What users expect for an argument of the class itself: rvalues that may be modified are moved from, other
arguments are copied, arguments that are volatile do not compile. -/
def copyOrMove (x : Arg B) : Option Fn :=
  if x.isVolatile then none
  else if !x.isLvalue && !x.isConst then some .move
  else some .copy

/-- The class is not the owned type and not the tag type. -/
structure Distinct (t : Types B) : Prop where
  owned : t.self ≠ t.owned
  inPlace : t.self ≠ t.inPlace

/-- If the template does not accept the argument, what users expect is selected. -/
private theorem no_forward {t : Types B} (h : t.self ≠ t.inPlace) {x : Arg B} (hx : x.ty = t.self) (b : Bool) :
    select t false b x = copyOrMove x := by
  obtain ⟨ty, c, v, l⟩ := x
  cases hx
  cases c <;> cases v <;> cases l <;> cases b <;>
    simp [select, all, isBest, viable, bindCopy, bindMove, bindInPlace, beats, better, copyOrMove, nonTemplate, h,
      List.find?]

/-- Construction, indirect.h. -/
theorem C49_construct {t : Types B} (h : Distinct t) {x : Arg B} (hx : x.ty = t.self) :
    constructs t x = copyOrMove x := by
  unfold constructs
  rw [show indirectCtor t (deduce x) = false by simp [indirectCtor, deduce, removeCvref, plain, hx]]
  exact no_forward h.inPlace hx _

/-- Construction with an allocator, indirect.h. -/
theorem C49_construct_with_allocator {t : Types B} (h : Distinct t) {x : Arg B} (hx : x.ty = t.self) :
    constructsA t x = copyOrMove x := by
  unfold constructsA
  rw [show indirectCtorA t (deduce x) = false by simp [indirectCtorA, deduce, removeCvref, plain, hx]]
  exact no_forward h.inPlace hx _

/-- Assignment, indirect.h. -/
theorem C49_assign {t : Types B} (h : Distinct t) {x : Arg B} (hx : x.ty = t.self) :
    assigns t x = copyOrMove x := by
  unfold assigns
  rw [show indirectAssign t (deduce x) = false by simp [indirectAssign, deduce, removeCvref, plain, hx]]
  exact no_forward h.inPlace hx _

/-- Construction, indirect_cxx14.h. -/
theorem C49_construct_cxx14 {t : Types B} (h : Distinct t) {x : Arg B} (hx : x.ty = t.self) :
    constructs14 t x = copyOrMove x ∧ constructsA14 t x = copyOrMove x := by
  unfold constructs14 constructsA14
  have : indirectCtor14 t (deduce x) = false := by
    simp [indirectCtor14, deduce, removeCvref, plain, hx, Ne.symm h.owned]
  rw [this]
  exact ⟨no_forward h.inPlace hx _, no_forward h.inPlace hx _⟩

/-- Construction, polymorphic.h and polymorphic_cxx14.h. -/
theorem C49_construct_polymorphic {t : Types B} (h : Distinct t) {x : Arg B} (hx : x.ty = t.self) :
    constructsP t x = copyOrMove x ∧ constructsPA t x = copyOrMove x := by
  unfold constructsP constructsPA
  have h1 : polymorphicCtor t (deduce x) = false := by simp [polymorphicCtor, deduce, removeCvref, plain, hx]
  have h2 : polymorphicCtorA t (deduce x) = false := by simp [polymorphicCtorA, deduce, removeCvref, plain, hx]
  rw [h1, h2]
  exact ⟨no_forward h.inPlace hx _, no_forward h.inPlace hx _⟩

/-- Assignment, polymorphic.h and polymorphic_cxx14.h. -/
theorem C49_assign_polymorphic {t : Types B} (h : Distinct t) {x : Arg B} (hx : x.ty = t.self) :
    assignsP t x = copyOrMove x := no_forward h.inPlace hx _

/-- A tag is never taken for a value: with an argument of the tag type the converting constructor of indirect.h
is not selected, even if the owned type can be constructed from a tag. -/
theorem C49_tag_is_not_a_value {t : Types B} (h : Distinct t) (hd : t.fromSelf t.inPlace = false) {x : Arg B}
    (hx : x.ty = t.inPlace) (hv : x.isVolatile = false) :
    constructs t x = if t.defaultConstructible && t.allocDefault then some .inPlace else none := by
  unfold constructs
  rw [show indirectCtor t (deduce x) = false by simp [indirectCtor, deduce, removeCvref, plain, hx]]
  obtain ⟨ty, c, v, l⟩ := x
  cases hx
  cases hv
  cases hb : t.defaultConstructible && t.allocDefault <;>
  simp [select, all, isBest, viable, bindCopy, bindMove, bindInPlace, Ne.symm h.inPlace, hd, List.find?]

/-- Values are values: an argument that is neither of the class, nor of a class derived from it, nor a tag is
forwarded to the owned type exactly if that can be constructed from it. -/
theorem C49_value_is_forwarded {t : Types B} (ha : t.allocDefault = true) {x : Arg B} (hx : x.ty ≠ t.self)
    (hd : t.fromSelf x.ty = false) (hi : x.ty ≠ t.inPlace) :
    constructs t x = if t.constructible (deduce x) then some .forward else none := by
  unfold constructs
  rw [show indirectCtor t (deduce x) = t.constructible (deduce x) by
    simp [indirectCtor, deduce, removeCvref, plain, hx, hi, ha]]
  cases t.constructible (deduce x) <;> cases t.defaultConstructible <;>
    simp [select, all, isBest, viable, bindCopy, bindMove, bindInPlace, hx, hd, hi, ha, List.find?]

/-- The same for assignment. -/
theorem C49_value_is_assigned {t : Types B} {x : Arg B} (hx : x.ty ≠ t.self) (hd : t.fromSelf x.ty = false) :
    assigns t x = if t.constructible (deduce x) && t.assignable (deduce x) then some .forward else none := by
  unfold assigns
  rw [show indirectAssign t (deduce x) = (t.constructible (deduce x) && t.assignable (deduce x)) by
    have : (removeCvref (deduce x) == plain t.self) = false := by
      simp [removeCvref, deduce, plain, hx]
    simp [indirectAssign, this]]
  cases t.constructible (deduce x) && t.assignable (deduce x) <;>
    simp [select, all, isBest, viable, bindCopy, bindMove, bindInPlace, hx, hd, List.find?]

/-- A limit of C49 in indirect.h: an object of a class derived from the class, when the owned type can be
constructed from it, is not copied or moved but forwarded. -/
theorem C49_derived_is_forwarded {t : Types B} (ha : t.allocDefault = true) {x : Arg B} (hx : x.ty ≠ t.self)
    (hd : t.fromSelf x.ty = true) (hi : x.ty ≠ t.inPlace) (hc : t.constructible (deduce x) = true) :
    constructs t x = some .forward := by
  unfold constructs
  rw [show indirectCtor t (deduce x) = true by
    simp [indirectCtor, ha, hc]; simp [deduce, removeCvref, plain, hx, hi]]
  obtain ⟨ty, c, v, l⟩ := x
  simp only at hx hd hi hc
  cases c <;> cases v <;> cases l <;>
    simp [select, all, isBest, viable, bindCopy, bindMove, bindForward, bindInPlace, beats, better, nonTemplate, hx,
      hd, hi, List.find?] <;> rfl

/-- Assignment in indirect_cxx14.h, exactly: the template is selected for an object of the class itself if it is
an lvalue that is not const (or is volatile) and the owned type can be constructed and assigned from it; otherwise
what users expect is selected.  So C49 holds for rvalues and for lvalues that are const; missing are the other
lvalues. -/
theorem C49_assign_cxx14_partial {t : Types B} (h : Distinct t) {x : Arg B} (hx : x.ty = t.self) :
    assigns14 t x =
      if x.isLvalue && (!x.isConst || x.isVolatile) && t.constructible (deduce x) && t.assignable (deduce x) then
        some .forward
      else copyOrMove x := by
  unfold assigns14
  cases hl : x.isLvalue with
  | false =>
    rw [show indirectAssign14 t (deduce x) = false by
      simp [indirectAssign14, deduce, removeCv, plain, hx, hl]]
    simpa using no_forward h.inPlace hx _
  | true =>
    rw [show indirectAssign14 t (deduce x) = (t.constructible (deduce x) && t.assignable (deduce x)) by
      simp [indirectAssign14, deduce, removeCv, plain, hx, hl]]
    cases hc : t.constructible (deduce x) && t.assignable (deduce x) with
    | false =>
      rw [no_forward h.inPlace hx, Bool.and_assoc, hc]
      simp
    | true =>
      rw [Bool.and_assoc, hc]
      obtain ⟨ty, c, v, l⟩ := x
      cases hx
      cases hl
      cases c <;> cases v <;>
        simp [select, all, isBest, viable, bindCopy, bindMove, bindForward, bindInPlace, beats, better, copyOrMove,
          nonTemplate, List.find?]

/-- Negation of C49 for assignment in indirect_cxx14.h: `y = x` with a variable `x` of the same type is not a copy
assignment, if the owned type can be constructed and assigned from anything (like `std::any`). -/
theorem C49_assign_cxx14_violated : ∃ t : Types Nat, Distinct t ∧
    assigns14 t ⟨t.self, false, false, true⟩ = some .forward ∧
    copyOrMove (B := Nat) ⟨t.self, false, false, true⟩ = some .copy :=
  ⟨⟨0, 1, 2, fun _ => false, fun b => b == 1, fun _ => true, fun _ => true, fun _ => true, true, true⟩,
    ⟨by decide, by decide⟩, by decide, by decide⟩

end

/-! ### The hypotheses are met -/
section

/-- An owned type like `std::any`: constructible and assignable from everything; type 3 is derived from the
class. -/
private def anyTypes : Types Nat :=
  ⟨0, 1, 2, fun b => b == 3, fun b => b == 1, fun _ => true, fun _ => true, fun _ => true, true, true⟩

example : Distinct anyTypes := ⟨by decide, by decide⟩

/-- The template would be selected for an lvalue if its constraint did not exclude the class. -/
example : select anyTypes true true ⟨0, false, false, true⟩ = some .forward := by decide

example : constructs anyTypes ⟨0, false, false, true⟩ = some .copy := by decide
example : constructs anyTypes ⟨0, false, false, false⟩ = some .move := by decide
example : constructs anyTypes ⟨0, true, false, false⟩ = some .copy := by decide
example : constructs anyTypes ⟨0, true, true, true⟩ = none := by decide
example : constructs anyTypes ⟨2, true, false, true⟩ = some .inPlace := by decide
example : constructs anyTypes ⟨3, false, false, true⟩ = some .forward := by decide
example : constructs anyTypes ⟨7, true, true, true⟩ = some .forward := by decide
example : assigns14 anyTypes ⟨0, false, false, true⟩ = some .forward := by decide
example : assigns14 anyTypes ⟨0, true, false, true⟩ = some .copy := by decide

end
end Verif.Props
