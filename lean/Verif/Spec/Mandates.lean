import Verif.Mandates
import Verif.Spec.Constraints

/-!
# For which owned types the paper says the members can be used

The "Mandates" paragraphs of DRAFT.md.
-/

set_option autoImplicit false

namespace Verif.Spec.Paper
open Verif.Constraints Overload

section
variable {B : Type} (F : Facts B)

/-- `indirect`: DRAFT.md:922-987, 1082-1124.  The allocator-extended move constructor has no such paragraph, but its effect
is to construct a `T` from an rvalue unless the allocators are equal. -/
def mandates (alwaysEqual : Bool) : Member → Prop
  | .make | .makeA => F.constructible F.owned [] = true
  | .copy | .copyA => Copyable F F.owned
  | .move => True
  | .moveA => alwaysEqual = true ∨ F.constructible F.owned [plain F.owned] = true
  | .copyAssign => F.assignable ⟨F.owned, true, false, true⟩ = true ∧ Copyable F F.owned
  | .moveAssign => Copyable F F.owned

/-- `polymorphic`: DRAFT.md:1421-1493, 1605-1660. -/
def mandatesP : Member → Prop
  | .make | .makeA => F.constructible F.owned [] = true ∧ Copyable F F.owned
  | _ => True

/-- Move construction as classes normally have it. -/
def Movable (b : B) : Prop :=
  F.nothrowDtor b = true ∧ F.constructible b [plain b] = true ∧ F.convertible (plain b) b = true

/-- A class that can be default-constructed, copied and assigned in the usual ways. -/
def Semiregular : Prop :=
  Regular F F.owned ∧ F.constructible F.owned [] = true ∧ F.ownedInit = true ∧
    (∀ isConst isRef, F.assignable ⟨F.owned, isConst, false, isRef⟩ = true ∧
      F.assignGivesRef ⟨F.owned, isConst, false, isRef⟩ = true ∧ F.commonRef ⟨F.owned, isConst, false, isRef⟩ = true) ∧
    F.pointerConverts F.owned = true

end
end Verif.Spec.Paper
