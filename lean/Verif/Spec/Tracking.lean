import Verif.Spec.Trace
import Verif.Spec.Run
import Verif.Tracking

/-!
# Specification of the counters of `TrackingAllocator`
-/

set_option autoImplicit false

namespace Verif.Spec
open Verif

/-- The calls that got or returned storage. -/
def succeeded : List Tracking.Call → List Tracking.Call
  | [] => []
  | .allocate _ none :: cs => succeeded cs
  | c :: cs => c :: succeeded cs

/-- The allocator calls behind the storage events of a history. -/
def storage : List (Ev Tracking) → List Tracking.Call
  | [] => []
  | .alloc a p :: t => .allocate a (some p) :: storage t
  | .dealloc a p :: t => .deallocate a p :: storage t
  | _ :: t => storage t

/-- `cs` are the allocator calls of a history with events `t`: those that succeeded are the storage events of the
history, in the same order, and there may be any number of refused allocations between them. -/
def CallsOf (cs : List Tracking.Call) (t : List (Ev Tracking)) : Prop := succeeded cs = storage t

/-- The number of allocations that allocator `a` was asked for and that failed. -/
def refused (a : Tracking) : List Tracking.Call → Nat
  | [] => 0
  | .allocate b none :: cs => (if b = a then 1 else 0) + refused a cs
  | _ :: cs => refused a cs

/-- The allocator that a call was made on. -/
def callee : Tracking.Call → Tracking
  | .allocate a _ => a
  | .deallocate a _ => a

/-- `a` has two counters, and no other allocator in use counts with either of them. -/
structure OwnCounters (a : Tracking) (cs : List Tracking.Call) : Prop where
  two : a.allocCounter ≠ a.deallocCounter
  only : ∀ c ∈ cs, callee c ≠ a →
    (callee c).allocCounter ≠ a.allocCounter ∧ (callee c).deallocCounter ≠ a.allocCounter ∧
    (callee c).allocCounter ≠ a.deallocCounter ∧ (callee c).deallocCounter ≠ a.deallocCounter

/-- `xs` lists, without repetition, the objects that own a value and whose allocator is `a`. -/
structure EngagedWith {L A V : Type} (σ : Boxes L A V) (a : A) (xs : List L) : Prop where
  nodup : xs.Nodup
  mem : ∀ x, x ∈ xs ↔ ∃ v, σ x = some { alloc := a, val := some v }

end Verif.Spec
