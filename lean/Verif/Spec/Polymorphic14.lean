import Verif.Polymorphic14
import Verif.Spec.PAbs

/-!
# Histories with polymorphic_cxx14.h
-/

set_option autoImplicit false

namespace Verif

/-- What the allocator requirements say about `==`: it is reflexive, and `is_always_equal` does not lie. -/
structure ATraits.Equality {A R : Type} (tr : ATraits A R) : Prop where
  refl : ∀ a, tr.eq a a = true
  always : tr.alwaysEqual = true → ∀ a b, tr.eq a b = true

/-- What the calls mean on plain values: as `Spec.pstep`, except that the initializer-list constructors make a `T`, whatever
type is asked for (DESIGN.md, finding 4). -/
def Spec.pstep14 {L A R Ty V X : Type} [DecidableEq L] (tr : ATraits A R) (P : PSpec Ty V X) (mem : Bool) (n : Nat)
    (σ : Boxes L A (Ty × V)) : POp L A Ty V X → Result L A (Ty × V)
  | .make x a (.ilist _ l us) => Spec.pstep tr P mem n σ (.make x a (.ilist P.base l us))
  | o => Spec.pstep tr P mem n σ o

namespace Polymorphic14
open Polymorphic (abs)
section
variable {L A R Ty V X : Type} [DecidableEq L] [DecidableEq R] [DecidableEq Ty]
variable (tr : ATraits A R) (P : PSpec Ty V X)

/-- A history of calls; as `Polymorphic.run`. -/
def run : List (POp L A Ty V X × Env) → St L A R (PBody Ty V) → Run (St L A R (PBody Ty V)) (Out L A (Ty × V)) :=
  runWith fun c s => call tr (plainP P) c.1 c.2 s

/-- Every call is made within its documented preconditions. -/
def LegalRun : List (POp L A Ty V X × Env) → St L A R (PBody Ty V) → Prop :=
  LegalWith (fun c s => call tr (plainP P) c.1 c.2 s) (fun s c => Spec.PLegal tr (abs s) c.1)

/-- States reachable by legal calls, in any environment, including after exceptions. -/
inductive Reach : St L A R (PBody Ty V) → Prop
  | init : Reach St.init
  | ret {s s' : St L A R (PBody Ty V)} (o : POp L A Ty V X) (e : Env) (out : Out L A (Ty × V)) :
      Reach s → Spec.PLegal tr (abs s) o → call tr (plainP P) o e s = .ok out s' → Reach s'
  | threw {s s' : St L A R (PBody Ty V)} (o : POp L A Ty V X) (e : Env) (x : Exn) :
      Reach s → Spec.PLegal tr (abs s) o → call tr (plainP P) o e s = .threw x s' → Reach s'

end
end Polymorphic14
end Verif
