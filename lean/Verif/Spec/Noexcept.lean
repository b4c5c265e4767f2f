import Verif.Noexcept

/-!
# Where the paper says `noexcept`

The declarations in DRAFT.md: `indirect` :827-915 and :922-1275, `polymorphic` :1358-1412 and :1421-1715.
-/

set_option autoImplicit false

namespace Verif.Spec.Paper
open Verif.Noexcept

/-- `tr` are the traits of the allocator; `eq` tells whether `*lhs == *rhs` is `noexcept`.  A move constructor is `noexcept` without a
condition (DRAFT.md:964, :1466); the destructor is, as every destructor. -/
def Promised {A R : Type} (tr : ATraits A R) (eq : Bool) (f : Fn) : Prop :=
  f ∈ [.move, .destroy, .deref, .arrow, .valueless, .getAllocator] ∨
  (f = .moveA ∧ tr.alwaysEqual = true) ∨
  (f = .assignMove ∧ (tr.pocma = true ∨ tr.alwaysEqual = true)) ∨
  (f ∈ [.swap, .friendSwap] ∧ (tr.pocs = true ∨ tr.alwaysEqual = true)) ∨
  (f ∈ [.equal, .equalValue] ∧ eq = true)

end Verif.Spec.Paper
