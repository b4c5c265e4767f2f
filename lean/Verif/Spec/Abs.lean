import Verif.Spec.Box

/-!
# From machine states to specification states; reachable states

`abs` forgets the heap.  `Reach` are the states a program can get into that uses objects only within the
documented preconditions, whatever the environment does; exceptions are caught between calls.
-/

set_option autoImplicit false

namespace Verif

/-- The objects of a machine state as values; `val` reads the value off the contents of a block. -/
def absWith {L A R B W : Type} (val : B → Option W) (hs : L → Option (Handle A))
    (heap : Addr → Option (Cell R B)) : Spec.Boxes L A W := fun l =>
  (hs l).map fun h => ⟨h.alloc, h.p.bind fun p => (heap p).bind fun c => val c.body⟩

namespace Indirect

section
variable {L A R V X : Type} [DecidableEq L] [DecidableEq R]

/-- The objects of a machine state as values. -/
def abs (s : St L A R (Obj V)) : Spec.Boxes L A V := absWith (fun b => b) s.hs s.heap

variable (tr : ATraits A R) (T : TSpec V X)

/-- States reachable by legal calls, in any environment, including after exceptions. -/
inductive Reach : St L A R (Obj V) → Prop
  | init : Reach St.init
  | ret {s s' : St L A R (Obj V)} (o : Op L A V X) (e : Env) (out : Out L A V) :
      Reach s → Spec.Legal tr (abs s) o → call tr (plain T) o e s = .ok out s' → Reach s'
  | threw {s s' : St L A R (Obj V)} (o : Op L A V X) (e : Env) (x : Exn) :
      Reach s → Spec.Legal tr (abs s) o → call tr (plain T) o e s = .threw x s' → Reach s'

end
end Verif.Indirect
