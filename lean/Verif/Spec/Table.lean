import Verif.Spec.Box
import Verif.Spec.Run

/-!
# Tables over all calls

Which object a call constructs, which object it moves from, whether it has to allocate, and what it releases;
read off the documentation, on specification states only.
-/

set_option autoImplicit false

namespace Verif.Spec
open Verif

section
variable {L A R V X : Type} [DecidableEq L]

/-- The object that a constructor call creates. -/
def newObject : Op L A V X → Option L
  | .make x _ _ => some x
  | .copy x _ => some x
  | .copyA x _ _ => some x
  | .move x _ => some x
  | .moveA x _ _ => some x
  | _ => none

/-- The object whose `T` an argument expression moves from. -/
def movedSrc : Src L X → Option L
  | .rval y => some y
  | _ => none

/-- The object that a call moves from. -/
def movedFrom : Op L A V X → Option L
  | .make _ _ (.from u) => movedSrc u
  | .make _ _ (.inPlaceOne u) => movedSrc u
  | .move _ y => some y
  | .moveA _ _ y => some y
  | .assignMove _ y => some y
  | .assignFrom _ u => movedSrc u
  | _ => none

/-- The objects whose members (pointer and allocator) a call may change: the ones it creates, destroys, assigns to,
moves from as a whole, or swaps.  Copying from an object, observing it, using or changing the `T` that it owns and
moving from that `T` are not among them. -/
def rebinds : Op L A V X → List L
  | .make x _ _ => [x]
  | .copy x _ => [x]
  | .copyA x _ _ => [x]
  | .move x y => [x, y]
  | .moveA x _ y => [x, y]
  | .destroy x => [x]
  | .assignCopy x _ => [x]
  | .assignMove x y => [x, y]
  | .assignFrom x _ => [x]
  | .swap x y => [x, y]
  | .friendSwap x y => [x, y]
  | _ => []

/-- The objects that may own something else, or a `T` with another value, after a call: in addition to the above the
ones whose `T` is moved from or modified by the client. -/
def changes (o : Op L A V X) : List L :=
  rebinds o ++ (movedFrom o).toList ++ match o with
    | .modify x _ => [x]
    | _ => []

/-- `x` has a value. -/
def has (σ : Boxes L A V) (x : L) : Bool := (valueOf σ x).isSome

/-- The allocators of `x` and `y` compare equal. -/
def sameAlloc (tr : ATraits A R) (σ : Boxes L A V) (x y : L) : Bool :=
  match σ x, σ y with
  | some b, some c => tr.eq b.alloc c.alloc
  | _, _ => false

/-- Can allocator `a` take over the storage of `y`? -/
def takesOver (tr : ATraits A R) (σ : Boxes L A V) (a : A) (y : L) : Bool :=
  tr.alwaysEqual || match σ y with
    | some c => tr.eq a c.alloc
    | none => false

/-- Number of allocations of a call that returns: one for a value construction and for the copy of an engaged
object; for a move only if the source is engaged and the allocators differ; for a copy assignment from an engaged
object unless it can assign in place; for an assignment from a value only if the target is valueless. -/
def allocCost (tr : ATraits A R) (T : TSpec V X) (σ : Boxes L A V) : Op L A V X → Nat
  | .make _ _ _ => 1
  | .copy _ y => if has σ y then 1 else 0
  | .copyA _ _ y => if has σ y then 1 else 0
  | .move _ y => if has σ y && !(match σ y with
      | some b => takesOver tr σ b.alloc y
      | none => false) then 1 else 0
  | .moveA _ a y => if has σ y && !takesOver tr σ a y then 1 else 0
  | .assignCopy x y => if x ≠ y ∧ has σ y ∧ ¬ (T.assignable ∧ has σ x ∧ sameAlloc tr σ x y) then 1 else 0
  | .assignMove x y => if x ≠ y ∧ has σ y ∧ ¬ sameAlloc tr σ x y then 1 else 0
  | .assignFrom x _ => if has σ x then 0 else 1
  | _ => 0

/-- Number of deallocations of a call that returns: what an engaged object owned is released when it is destroyed
or when it is assigned something that it does not assign in place. -/
def deallocCost (tr : ATraits A R) (T : TSpec V X) (σ : Boxes L A V) : Op L A V X → Nat
  | .destroy x => if has σ x then 1 else 0
  | .assignCopy x y => if x ≠ y ∧ has σ x ∧ ¬ (T.assignable ∧ has σ y ∧ sameAlloc tr σ x y) then 1 else 0
  | .assignMove x y => if x ≠ y ∧ has σ x then 1 else 0
  | _ => 0

/-- Number of `T`s constructed, copied, moved or assigned by a call that returns. -/
def opCost (tr : ATraits A R) (T : TSpec V X) (σ : Boxes L A V) : Op L A V X → Nat
  | .assignFrom _ _ => 1
  | .assignCopy x y => if x ≠ y ∧ has σ y then 1 else 0
  | o => allocCost tr T σ o

end

section
variable {R : Type}

/-- All constructions and assignments of `T`s in a trace. -/
def tops : List (Ev R) → Nat
  | [] => 0
  | .construct _ _ :: t => 1 + tops t
  | .assign _ _ :: t => 1 + tops t
  | _ :: t => tops t

/-- All destructions of `T`s in a trace. -/
def destroys : List (Ev R) → Nat
  | [] => 0
  | .destroy _ :: t => 1 + destroys t
  | _ :: t => destroys t

end
end Verif.Spec
