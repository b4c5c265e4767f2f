import Verif.Spec.Careful14
import Verif.Spec.Aware
import Verif.Spec.Counting

/-!
# Careful histories with polymorphic_cxx14.h: values that use their owner's allocator, allocators that count
-/

set_option autoImplicit false

namespace Verif.Polymorphic14
open Polymorphic (abs)
section
variable {L A R Ty V X : Type} [DecidableEq L] [DecidableEq R] [DecidableEq Ty]

/-- What a program can reach whose calls are within their documented preconditions, careful, and as `ok` says, if the owned objects
may use the allocator they are constructed with. -/
def CarefulAwareReach (tr : ATraits A R) (P : PAwareSpec A Ty V X) (ok : POp L A Ty V X → Prop) : St L A R (PBody Ty V) → Prop :=
  Spec.ReachedBy (call tr (awareP P)) (fun s o => (Spec.PLegal tr (abs s) o ∧ Careful tr (abs s) o) ∧ ok o) St.init

/-- What a program can reach whose calls are within their documented preconditions and careful, with an allocator that records calls
of `construct` and `destroy`. -/
def CarefulCountReach (tr : ATraits A R) (P : PSpec Ty V X) : St L A R (PBody Ty V) → Prop :=
  Spec.ReachedBy (fun o e s => call tr (countingP tr (plainP P)) o e s)
    (fun s (o : POp L A Ty V X) => Spec.PLegal tr (abs s) o ∧ Careful tr (abs s) o) St.init

end
end Verif.Polymorphic14
