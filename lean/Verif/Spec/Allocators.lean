import Verif.Spec.PBox
import Verif.Spec.Run

/-!
# Which allocator an object has

Values and storage play no role: the allocators after a call depend on the allocators before, on the call, and on the
propagation traits.  This is what the paper says in [indirect.ctor], [indirect.assign], [indirect.swap] and the same
sections on polymorphic.
-/

set_option autoImplicit false

namespace Verif.Spec
open Verif

section
variable {L A R Ty V X : Type} [DecidableEq L]

/-- The allocators of all objects that are alive. -/
abbrev Allocs (L A : Type) := L → Option A

/-- What `get_allocator()` returns. -/
def allocOf (σ : Boxes L A V) : Allocs L A := fun z => (σ z).map (·.alloc)

/-- Object `x` has allocator `a` (or is not alive). -/
def give (al : Allocs L A) (x : L) (a : Option A) : Allocs L A := fun z => if z = x then a else al z

/-- Allocators after a call that returned. -/
def allocAfter (tr : ATraits A R) (al : Allocs L A) : Op L A V X → Allocs L A
  | .make x a _ => give al x (some (a.getD tr.dflt))
  | .copy x y => give al x ((al y).map tr.socc)
  | .copyA x a _ => give al x (some a)
  | .move x y => give al x (al y)
  | .moveA x a _ => give al x (some a)
  | .destroy x => give al x none
  | .assignCopy x y => if tr.pocca then give al x (al y) else al
  | .assignMove x y => if tr.pocma then give al x (al y) else al
  | .swap x y => if tr.pocs then give (give al x (al y)) y (al x) else al
  | .friendSwap x y => if tr.pocs then give (give al x (al y)) y (al x) else al
  | .assignFrom _ _ => al
  | .deref _ => al
  | .arrow _ => al
  | .modify _ _ => al
  | .valueless _ => al
  | .getAllocator _ => al

/-- The same for `polymorphic`. -/
def pallocAfter (tr : ATraits A R) (al : Allocs L A) : POp L A Ty V X → Allocs L A
  | .make x a _ => give al x (some (a.getD tr.dflt))
  | .copy x y => give al x ((al y).map tr.socc)
  | .copyA x a _ => give al x (some a)
  | .move x y => give al x (al y)
  | .moveA x a _ => give al x (some a)
  | .destroy x => give al x none
  | .assignCopy x y => if tr.pocca then give al x (al y) else al
  | .assignMove x y => if tr.pocma then give al x (al y) else al
  | .swap x y => if tr.pocs then give (give al x (al y)) y (al x) else al
  | .friendSwap x y => if tr.pocs then give (give al x (al y)) y (al x) else al
  | .deref _ => al
  | .arrow _ => al
  | .modify _ _ => al
  | .valueless _ => al
  | .getAllocator _ => al

/-- Allocators after a history: calls that threw change none. -/
def allocsAfter {O C : Type} (after : Allocs L A → C → Allocs L A) : List C → List (Seen O) → Allocs L A → Allocs L A
  | c :: cs, .ret _ :: log, al => allocsAfter after cs log (after al c)
  | _ :: cs, .exn _ :: log, al => allocsAfter after cs log al
  | _, _, al => al

/-- The allocators that a call brings in satisfy `Q`. -/
def Brings (Q : A → Prop) : Op L A V X → Prop
  | .make _ (some a) _ => Q a
  | .copyA _ a _ => Q a
  | .moveA _ a _ => Q a
  | _ => True

/-- The same for `polymorphic`. -/
def PBrings (Q : A → Prop) : POp L A Ty V X → Prop
  | .make _ (some a) _ => Q a
  | .copyA _ a _ => Q a
  | .moveA _ a _ => Q a
  | _ => True

end
end Verif.Spec
