import Verif.Spec.Trace
import Verif.Spec.Run

/-!
# Effects of calls, in terms of objects, storage and events

Vocabulary for the statements about single calls.
-/

set_option autoImplicit false

namespace Verif.Spec
open Verif

section
variable {L A R V : Type}

/-- Every `indirect` object (liveness, allocator, pointer) and every `T` and block of storage is as before. -/
def Untouched {B : Type} (s s' : St L A R B) : Prop := s'.hs = s.hs ∧ s'.heap = s.heap

/-- No allocator call and no operation of `T` took place. -/
def Silent {B : Type} (s s' : St L A R B) : Prop := s'.trace = s.trace

/-- Storage in which the object at `q` has been left with value `v`. -/
def leftWith (heap : Addr → Option (Cell R (Obj V))) (q : Addr) (v : V) : Addr → Option (Cell R (Obj V)) :=
  fun z => if z = q then (heap q).map (fun c => ⟨c.arena, some v⟩) else heap z

/-- Object `x` now has allocator `a` and owns a `T` with value `v` that was built in new storage `p`, obtained
from the resource of `a`; apart from that the objects are as in `s` and the storage is as in `heap`; the only
events are the allocation and the construction. -/
structure Created (tr : ATraits A R) (s s' : St L A R (Obj V)) (heap : Addr → Option (Cell R (Obj V)))
    (x : L) (a : A) (v : V) (p : Addr) (how : How) : Prop where
  fresh : s.heap p = none
  owner : s'.hs x = some ⟨some p, a⟩
  value : s'.heap p = some ⟨tr.res a, some v⟩
  others : ∀ z, z ≠ x → s'.hs z = s.hs z
  storage : ∀ q, q ≠ p → s'.heap q = heap q
  events : s'.trace = s.trace ++ [.alloc (tr.res a) p, .construct p how]

/-- The construction of a `T` with outcome `r` in new storage of the resource of `a` failed: either there was
no storage (then nothing at all happened), or the constructor threw (then the storage was given back to the
same resource).  No `indirect` object is different from before; the storage is as in `heap`, which is what
the throwing constructor left, or as before. -/
inductive CreateFailed (tr : ATraits A R) (s s' : St L A R (Obj V)) (e : Env)
    (heap : Addr → Option (Cell R (Obj V))) (a : A) (r : Except Exn V) (x : Exn) : Prop where
  | noStorage : available s e = false → x = .badAlloc → s'.hs = s.hs → s'.heap = s.heap →
      s'.trace = s.trace → CreateFailed tr s s' e heap a r x
  | ctorThrew (p : Addr) : available s e = true → r = .error x → s.heap p = none → s'.hs = s.hs →
      s'.heap = heap → s'.trace = s.trace ++ [.alloc (tr.res a) p, .dealloc (tr.res a) p] →
      CreateFailed tr s s' e heap a r x

/-- What is recorded when an object with pointer member `p` and allocator `a` gives up what it owns: nothing,
or the destruction of the `T` followed by the return of the storage to the resource of `a`. -/
def released (tr : ATraits A R) (p : Option Addr) (a : A) : List (Ev R) :=
  match p with
  | none => []
  | some p => [.destroy p, .dealloc (tr.res a) p]

/-- Storage without the given block. -/
def without (heap : Addr → Option (Cell R (Obj V))) (p : Option Addr) : Addr → Option (Cell R (Obj V)) :=
  fun z => if p = some z then none else heap z

/-- As `Created`, for an object `x` that owned `old` and had allocator `aold`: what it owned before is released
after the new `T` is complete. -/
structure Replaced (tr : ATraits A R) (s s' : St L A R (Obj V)) (heap : Addr → Option (Cell R (Obj V)))
    (x : L) (old : Option Addr) (aold a : A) (v : V) (p : Addr) (how : How) : Prop where
  fresh : s.heap p = none
  owner : s'.hs x = some ⟨some p, a⟩
  value : s'.heap p = some ⟨tr.res a, some v⟩
  others : ∀ z, z ≠ x → s'.hs z = s.hs z
  storage : ∀ q, q ≠ p → s'.heap q = without heap old q
  events : s'.trace = s.trace ++ [.alloc (tr.res a) p, .construct p how] ++ released tr old aold

/-- Object `x`, now with allocator `a`, still owns the `T` in block `p`, which has been assigned to in place and now
has value `d`; apart from that the objects are as in `s` and the storage is as in `heap`. -/
structure Assigned (s s' : St L A R (Obj V)) (heap : Addr → Option (Cell R (Obj V)))
    (x : L) (a : A) (p : Addr) (d : V) (how : How) : Prop where
  owner : s'.hs x = some ⟨some p, a⟩
  value : ∃ r w, s.heap p = some ⟨r, some w⟩ ∧ s'.heap p = some ⟨r, some d⟩
  others : ∀ z, z ≠ x → s'.hs z = s.hs z
  storage : ∀ q, q ≠ p → s'.heap q = heap q
  events : s'.trace = s.trace ++ [.assign p how]

/-- Object `x`, which owned `old` and had allocator `aold`, has given it up, is valueless and has allocator `a`. -/
structure Emptied (tr : ATraits A R) (s s' : St L A R (Obj V)) (x : L) (old : Option Addr) (aold a : A) : Prop where
  owner : s'.hs x = some ⟨none, a⟩
  others : ∀ z, z ≠ x → s'.hs z = s.hs z
  storage : s'.heap = without s.heap old
  events : s'.trace = s.trace ++ released tr old aold

/-- The effect of transferring what `y` owns to the new object `x` with allocator `a`: the `T` stays where it is,
`y` keeps its allocator and is valueless, and no allocator and no `T` operation is involved. -/
structure Transferred [DecidableEq L] (s s' : St L A R (Obj V)) (x : L) (a : A) (y : L) (b : Spec.Box A V) : Prop where
  values : Indirect.abs s' = Spec.put (Spec.put (Indirect.abs s) y ⟨b.alloc, none⟩) x ⟨a, b.val⟩
  address : addr s' x = addr s y
  others : ∀ z, z ≠ x → z ≠ y → s'.hs z = s.hs z
  storage : s'.heap = s.heap
  silent : Spec.Silent s s'

end
end Verif.Spec
