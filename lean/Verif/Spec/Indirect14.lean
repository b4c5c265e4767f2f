import Verif.Indirect14
import Verif.Spec.Run

/-!
# Histories with indirect_cxx14.h
-/

set_option autoImplicit false

namespace Verif

/-- The type as the C++14 header sees it: where indirect.h asks for `assignable_from<T&, T>`, indirect_cxx14.h asks
for `is_copy_assignable<T>`. -/
def TSpec.cxx14 {V X : Type} (T : TSpec V X) : TSpec V X := { T with assignable := T.copyAssignable }

namespace Indirect14
open Indirect (abs)
section
variable {L A R V X : Type} [DecidableEq L] [DecidableEq R]
variable (tr : ATraits A R) (T : TSpec V X)

/-- A history of calls; as `Indirect.run`. -/
def run : List (Op L A V X × Env) → St L A R (Obj V) → Run (St L A R (Obj V)) (Out L A V) :=
  runWith fun c s => call tr (plain T) c.1 c.2 s

/-- Every call is made within its documented preconditions. -/
def LegalRun : List (Op L A V X × Env) → St L A R (Obj V) → Prop :=
  LegalWith (fun c s => call tr (plain T) c.1 c.2 s) (fun s c => Spec.Legal tr (abs s) c.1)

/-- States reachable by legal calls, in any environment, including after exceptions. -/
inductive Reach : St L A R (Obj V) → Prop
  | init : Reach St.init
  | ret {s s' : St L A R (Obj V)} (o : Op L A V X) (e : Env) (out : Out L A V) :
      Reach s → Spec.Legal tr (abs s) o → call tr (plain T) o e s = .ok out s' → Reach s'
  | threw {s s' : St L A R (Obj V)} (o : Op L A V X) (e : Env) (x : Exn) :
      Reach s → Spec.Legal tr (abs s) o → call tr (plain T) o e s = .threw x s' → Reach s'

end
end Indirect14
end Verif
