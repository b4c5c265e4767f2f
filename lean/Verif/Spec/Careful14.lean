import Verif.Spec.Polymorphic14

/-!
# Histories with polymorphic_cxx14.h that avoid its defects
-/

set_option autoImplicit false

namespace Verif.Polymorphic14
open Polymorphic (abs)
section
variable {L A R Ty V X : Type} [DecidableEq L] [DecidableEq R] [DecidableEq Ty]

/-- If the allocator propagates on copy assignment, then the call is no allocator-extended move of a value to an unequal allocator
(DESIGN.md, finding 3). -/
def Careful (tr : ATraits A R) (σ : Spec.Boxes L A (Ty × V)) : POp L A Ty V X → Prop
  | .moveA _ a y => tr.pocca = true → ∀ b v, σ y = some ⟨b, some v⟩ → tr.eq a b = true
  | _ => True

/-- Every call is within its documented preconditions and careful. -/
def CarefulRun (tr : ATraits A R) (P : PSpec Ty V X) : List (POp L A Ty V X × Env) → St L A R (PBody Ty V) → Prop :=
  LegalWith (fun c s => call tr (plainP P) c.1 c.2 s) (fun s c => Spec.PLegal tr (abs s) c.1 ∧ Careful tr (abs s) c.1)

/-- No initializer-list construction of a type other than `T` (finding 4). -/
def NoDerivedLists (P : PSpec Ty V X) (cs : List (POp L A Ty V X × Env)) : Prop :=
  ∀ c ∈ cs, ∀ x a ty l us, c.1 = .make x a (.ilist ty l us) → ty = P.base

end
end Verif.Polymorphic14
