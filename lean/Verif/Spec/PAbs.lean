import Verif.Spec.PBox
import Verif.Spec.Run
import Verif.Spec.Table

/-!
# Values, reachable states and histories of `polymorphic`
-/

set_option autoImplicit false

namespace Verif
namespace Polymorphic

section
variable {L A R Ty V X : Type} [DecidableEq L] [DecidableEq R] [DecidableEq Ty]

/-- The objects of a machine state as values: what `*x` is, found through `cb_`, with its dynamic type. -/
def abs (s : St L A R (PBody Ty V)) : Spec.Boxes L A (Ty × V) :=
  absWith (fun b => b.bind fun c => c.u.map fun v => (c.ty, v)) s.hs s.heap

/-- The owned object in a block, with its dynamic type, without the control block that holds it. -/
def viewBody (b : PBody Ty V) : Obj (Ty × V) := b.bind fun c => c.u.map fun v => (c.ty, v)

/-- A block of storage and the owned object in it. -/
def viewCell (c : Cell R (PBody Ty V)) : Cell R (Obj (Ty × V)) := ⟨c.arena, viewBody c.body⟩

/-- A machine state without the internals of the control blocks: the objects, their pointer members and allocators, the
allocated storage with the owned objects in it, and everything that has happened. -/
def view (s : St L A R (PBody Ty V)) : St L A R (Obj (Ty × V)) where
  hs := s.hs
  heap p := (s.heap p).map viewCell
  trace := s.trace
  env := s.env
  ai := s.ai
  ti := s.ti

variable (tr : ATraits A R) (P : PSpec Ty V X)

/-- States reachable by legal calls, in any environment, including after exceptions. -/
inductive Reach : St L A R (PBody Ty V) → Prop
  | init : Reach St.init
  | ret {s s' : St L A R (PBody Ty V)} (o : POp L A Ty V X) (e : Env) (out : Out L A (Ty × V)) :
      Reach s → Spec.PLegal tr (abs s) o → call tr (plainP P) o e s = .ok out s' → Reach s'
  | threw {s s' : St L A R (PBody Ty V)} (o : POp L A Ty V X) (e : Env) (x : Exn) :
      Reach s → Spec.PLegal tr (abs s) o → call tr (plainP P) o e s = .threw x s' → Reach s'

/-- A history of calls, each with the environment it runs in. -/
def run : List (POp L A Ty V X × Env) → St L A R (PBody Ty V) → Run (St L A R (PBody Ty V)) (Out L A (Ty × V)) :=
  runWith fun c s => call tr (plainP P) c.1 c.2 s

/-- Every call is made within its documented preconditions. -/
def LegalRun : List (POp L A Ty V X × Env) → St L A R (PBody Ty V) → Prop :=
  LegalWith (fun c s => call tr (plainP P) c.1 c.2 s) (fun s c => Spec.PLegal tr (abs s) c.1)

/-- What happened outside during each call of a history. -/
def lucks : List (POp L A Ty V X × Env) → St L A R (PBody Ty V) → List (POp L A Ty V X × Spec.Luck)
  | [], _ => []
  | (o, e) :: cs, s => (o, ⟨available s e, e.choice 0⟩) ::
    match call tr (plainP P) o e s with
    | .ok _ s' => lucks cs s'
    | .threw _ s' => lucks cs s'
    | _ => []

end
end Polymorphic

namespace Spec
section
variable {L A R Ty V X : Type} [DecidableEq L]

/-- A history of calls on plain values with a type tag. -/
def prun (tr : ATraits A R) (P : PSpec Ty V X) : List (POp L A Ty V X × Luck) → Boxes L A (Ty × V) → SRun L A (Ty × V)
  | [], σ => .done [] σ
  | (o, k) :: cs, σ =>
    match pstep tr P k.mem k.choice σ o with
    | .ret out σ' => (prun tr P cs σ').cons (.ret out)
    | .threw e σ' => (prun tr P cs σ').cons (.exn e)
    | .terminated => .terminated []
    | .illegal => .illegal

/-- The objects that a call mentions. -/
def poperands : POp L A Ty V X → List L
  | .make x _ (.from _ u) => x :: srcOperands u
  | .make x _ _ => [x]
  | .copy x y => [x, y]
  | .copyA x _ y => [x, y]
  | .move x y => [x, y]
  | .moveA x _ y => [x, y]
  | .destroy x => [x]
  | .assignCopy x y => [x, y]
  | .assignMove x y => [x, y]
  | .deref x => [x]
  | .arrow x => [x]
  | .modify x _ => [x]
  | .valueless x => [x]
  | .getAllocator x => [x]
  | .swap x y => [x, y]
  | .friendSwap x y => [x, y]

/-- The type and the constructor arguments of the owned object that a value constructor is asked for, given the base
class; `none` if it is given an object to copy or to move from. -/
def requested (base : Ty) : PCtor L Ty X → Option (Ty × TArgs X)
  | .default => some (base, .none)
  | .from ty (.arg x) => some (ty, .pack [x])
  | .inPlace ty us => some (ty, .pack us)
  | .ilist ty l us => some (ty, .ilist l us)
  | _ => none

/-- The object that a constructor call creates. -/
def pnewObject : POp L A Ty V X → Option L
  | .make x _ _ => some x
  | .copy x _ => some x
  | .copyA x _ _ => some x
  | .move x _ => some x
  | .moveA x _ _ => some x
  | _ => none

/-- The object that a call moves from. -/
def pmovedFrom : POp L A Ty V X → Option L
  | .make _ _ (.from _ (.rval y)) => some y
  | .move _ y => some y
  | .moveA _ _ y => some y
  | .assignMove _ y => some y
  | _ => none

/-- The objects whose members (pointer and allocator) a call may change: the ones it creates, destroys, assigns to,
moves from as a whole, or swaps. -/
def prebinds : POp L A Ty V X → List L
  | .make x _ _ => [x]
  | .copy x _ => [x]
  | .copyA x _ _ => [x]
  | .move x y => [x, y]
  | .moveA x _ y => [x, y]
  | .destroy x => [x]
  | .assignCopy x _ => [x]
  | .assignMove x y => [x, y]
  | .swap x y => [x, y]
  | .friendSwap x y => [x, y]
  | _ => []

/-- The objects that may own something else, or an object with another value, after a call: in addition to the above the
ones whose owned object is moved from or modified by the client. -/
def pchanges (o : POp L A Ty V X) : List L :=
  prebinds o ++ (pmovedFrom o).toList ++ match o with
    | .modify x _ => [x]
    | _ => []

/-- Number of allocations of a call that returns: one for a value construction, for the copy of an engaged object and
for the copy assignment from one; for a move only if the source is engaged and the allocators differ. -/
def pallocCost (tr : ATraits A R) (σ : Boxes L A (Ty × V)) : POp L A Ty V X → Nat
  | .make _ _ _ => 1
  | .copy _ y => if has σ y then 1 else 0
  | .copyA _ _ y => if has σ y then 1 else 0
  | .move _ y => if has σ y && !(match σ y with
      | some b => takesOver tr σ b.alloc y
      | none => false) then 1 else 0
  | .moveA _ a y => if has σ y && !takesOver tr σ a y then 1 else 0
  | .assignCopy x y => if x ≠ y ∧ has σ y then 1 else 0
  | .assignMove x y => if x ≠ y ∧ has σ y ∧ ¬ sameAlloc tr σ x y then 1 else 0
  | _ => 0

/-- Number of deallocations of a call that returns: what an engaged object owned is released when it is destroyed or
assigned. -/
def pdeallocCost (σ : Boxes L A (Ty × V)) : POp L A Ty V X → Nat
  | .destroy x => if has σ x then 1 else 0
  | .assignCopy x y => if x ≠ y ∧ has σ x then 1 else 0
  | .assignMove x y => if x ≠ y ∧ has σ x then 1 else 0
  | _ => 0

end
end Spec
end Verif
