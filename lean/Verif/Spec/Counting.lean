import Verif.Counting
import Verif.Spec.Aware

/-!
# Specification of calls of `construct` and `destroy`

The life of a block of storage as its allocator sees it: allocated, something constructed in it, that destroyed, deallocated, all by
allocators of one memory resource.
-/

set_option autoImplicit false

namespace Verif.Spec

/-- What is in a block of storage, and by allocators of which memory resource it came there. -/
inductive Slot (R : Type) where
  /-- not allocated -/
  | free
  /-- allocated, nothing constructed yet -/
  | storage (r : R)
  /-- holds what `construct` constructed -/
  | filled (r : R)
  /-- allocated, and what was in it was destroyed with `destroy` -/
  | emptied (r : R)
  deriving DecidableEq, Repr

section
variable {R : Type} [DecidableEq R]

/-- What an event does to block `p`; `none` if it must not happen.  `k`: whether owned objects or control blocks are looked at. -/
def Slot.next (p : Addr) (k : Part) (x : Slot R) : Ev R → Option (Slot R)
  | .alloc r q => if q = p then (if x = .free then some (.storage r) else none) else some x
  | .dealloc r q => if q = p then (if x = .storage r ∨ x = .emptied r then some .free else none) else some x
  | .custom .construct j r q => if q = p ∧ j = k then (if x = .storage r then some (.filled r) else none) else some x
  | .custom .destroy j r q => if q = p ∧ j = k then (if x = .filled r then some (.emptied r) else none) else some x
  | _ => some x

/-- What is in block `p` after the events of a trace; `none` if one of them must not happen. -/
def slotAt (p : Addr) (k : Part) (t : List (Ev R)) : Option (Slot R) := t.foldlM (fun x ev => x.next p k ev) .free

/-- The number of calls of `construct` (or `destroy`) of allocators with memory resource `r` for owned objects (or control blocks). -/
def customCalls (c : Custom) (k : Part) (r : R) : List (Ev R) → Nat
  | [] => 0
  | .custom c' k' r' _ :: t => (if c' = c ∧ k' = k ∧ r' = r then 1 else 0) + customCalls c k r t
  | _ :: t => customCalls c k r t

/-- The object at `z` owns something at address `p`, with allocator `a`. -/
def Owns {L A B : Type} (s : St L A R B) (z : L) (p : Addr) (a : A) : Prop := s.hs z = some ⟨some p, a⟩

/-- Everything of kind `k` that `construct` constructed is destroyed with `destroy`, by an allocator of the same memory resource, between
its construction and the deallocation of its storage; and what is not destroyed yet is what is owned. -/
def Paired {L A B : Type} (tr : ATraits A R) (k : Part) (s : St L A R B) : Prop :=
  (∀ z p a, Owns s z p a → slotAt p k s.trace = some (.filled (tr.res a))) ∧
  ∀ p, (∀ z a, ¬ Owns s z p a) → slotAt p k s.trace = some .free

end
end Verif.Spec

namespace Verif
section
variable {L A R V X Ty : Type} [DecidableEq L] [DecidableEq R] [DecidableEq Ty]

/-- What a program can reach that uses `indirect` within its preconditions, with an allocator that records calls of `construct` and
`destroy`. -/
def Indirect.CountReach (tr : ATraits A R) (T : TSpec V X) : St L A R (Obj V) → Prop :=
  Spec.ReachedBy (fun o e s => Indirect.call tr (counting tr (plain T)) o e s) (fun s (o : Op L A V X) => Spec.Legal tr (Indirect.abs s) o)
    St.init

/-- The same for indirect_cxx14.h. -/
def Indirect14.CountReach (tr : ATraits A R) (T : TSpec V X) : St L A R (Obj V) → Prop :=
  Spec.ReachedBy (fun o e s => Indirect14.call tr (counting tr (plain T)) o e s)
    (fun s (o : Op L A V X) => Spec.Legal tr (Indirect.abs s) o) St.init

/-- The same for polymorphic.h. -/
def Polymorphic.CountReach (tr : ATraits A R) (P : PSpec Ty V X) : St L A R (PBody Ty V) → Prop :=
  Spec.ReachedBy (fun o e s => Polymorphic.call tr (countingP tr (plainP P)) o e s)
    (fun s (o : POp L A Ty V X) => Spec.PLegal tr (Polymorphic.abs s) o) St.init

/-- The same for polymorphic_cxx14.h. -/
def Polymorphic14.CountReach (tr : ATraits A R) (P : PSpec Ty V X) : St L A R (PBody Ty V) → Prop :=
  Spec.ReachedBy (fun o e s => Polymorphic14.call tr (countingP tr (plainP P)) o e s)
    (fun s (o : POp L A Ty V X) => Spec.PLegal tr (Polymorphic.abs s) o) St.init

end
end Verif
