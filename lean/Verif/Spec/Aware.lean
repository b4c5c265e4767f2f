import Verif.Aware
import Verif.Spec.Allocators
import Verif.Spec.Indirect14
import Verif.Spec.Polymorphic14

/-!
# Specification of owners of types that use their allocator

What a call does to values is what it would do with an owned type that knows from the start which allocator it is to use: the
one that the object on which the call is made has afterwards.
-/

set_option autoImplicit false

namespace Verif

/-- The owned type whose constructors use allocator `a`. -/
def AwareSpec.at {A V X : Type} (T : AwareSpec A V X) (a : A) : TSpec V X where
  make := T.make a
  copy := T.copy a
  move := T.move a
  copyAssign := T.copyAssign
  moveAssign := T.moveAssign
  assignArg := T.assignArg
  assignable := T.assignable
  copyAssignable := T.copyAssignable

/-- The same for `polymorphic`. -/
def PAwareSpec.at {A Ty V X : Type} (P : PAwareSpec A Ty V X) (a : A) : PSpec Ty V X where
  base := P.base
  make ty := P.make ty a
  copy ty := P.copy ty a
  move ty := P.move ty a

namespace Spec
section
variable {L A R V X Ty : Type} [DecidableEq L]

/-- The object on which a call is made. -/
def target : Op L A V X → L
  | .make x _ _ => x
  | .copy x _ => x
  | .copyA x _ _ => x
  | .move x _ => x
  | .moveA x _ _ => x
  | .destroy x => x
  | .assignCopy x _ => x
  | .assignMove x _ => x
  | .assignFrom x _ => x
  | .deref x => x
  | .arrow x => x
  | .modify x _ => x
  | .valueless x => x
  | .getAllocator x => x
  | .swap x _ => x
  | .friendSwap x _ => x

/-- The same for `polymorphic`. -/
def ptarget : POp L A Ty V X → L
  | .make x _ _ => x
  | .copy x _ => x
  | .copyA x _ _ => x
  | .move x _ => x
  | .moveA x _ _ => x
  | .destroy x => x
  | .assignCopy x _ => x
  | .assignMove x _ => x
  | .deref x => x
  | .arrow x => x
  | .modify x _ => x
  | .valueless x => x
  | .getAllocator x => x
  | .swap x _ => x
  | .friendSwap x _ => x

/-- The allocator that the object on which a call is made has after the call (any, if there is no object then). -/
def home (tr : ATraits A R) (σ : Boxes L A V) (o : Op L A V X) : A := (allocAfter tr (allocOf σ) o (target o)).getD tr.dflt

/-- The same for `polymorphic`. -/
def phome (tr : ATraits A R) (σ : Boxes L A (Ty × V)) (o : POp L A Ty V X) : A :=
  (pallocAfter tr (allocOf σ) o (ptarget o)).getD tr.dflt

/-- An owned type that takes its storage from the allocator it is constructed with, and never from another one.  `uses` is the
memory resource that a value uses. -/
structure Stays (tr : ATraits A R) (T : AwareSpec A V X) (uses : V → R) : Prop where
  make : ∀ a xs n v, T.make a xs n = .ok v → uses v = tr.res a
  copy : ∀ a v n w, T.copy a v n = .ok w → uses w = tr.res a
  move : ∀ a v n w, (T.move a v n).1 = .ok w → uses w = tr.res a
  movedFrom : ∀ a v n, uses (T.move a v n).2 = uses v
  copyAssign : ∀ d v n, uses (T.copyAssign d v n).2 = uses d
  moveAssign : ∀ d v n, uses (T.moveAssign d v n).2.1 = uses d
  moveAssigned : ∀ d v n, uses (T.moveAssign d v n).2.2 = uses v
  assignArg : ∀ d x n, uses (T.assignArg d x n).2 = uses d

/-- The same for the types that a `polymorphic` owns. -/
structure PStays (tr : ATraits A R) (P : PAwareSpec A Ty V X) (uses : Ty → V → R) : Prop where
  make : ∀ ty a xs n v, P.make ty a xs n = .ok v → uses ty v = tr.res a
  copy : ∀ ty a v n w, P.copy ty a v n = .ok w → uses ty w = tr.res a
  move : ∀ ty a v n w, (P.move ty a v n).1 = .ok w → uses ty w = tr.res a
  movedFrom : ∀ ty a v n, uses ty (P.move ty a v n).2 = uses ty v

/-- Client code does not exchange the memory resource of an owned object. -/
def KeepsHome (uses : V → R) : Op L A V X → Prop
  | .modify _ f => ∀ v, uses (f v) = uses v
  | _ => True

/-- The same for `polymorphic`. -/
def PKeepsHome (uses : Ty → V → R) : POp L A Ty V X → Prop
  | .modify _ f => ∀ ty v, uses ty (f ty v) = uses ty v
  | _ => True

/-- Every owned object uses the memory resource of its owner's allocator. -/
def AtHome (tr : ATraits A R) (uses : V → R) (σ : Boxes L A V) : Prop :=
  ∀ z a v, σ z = some ⟨a, some v⟩ → uses v = tr.res a

/-- A call of the machine did what the specification says. -/
def Does {S : Type} (val : S → Boxes L A V) : Res S (Out L A V) → Result L A V → Prop
  | .ok out s', .ret out' σ => out = out' ∧ val s' = σ
  | .threw e s', .threw e' σ => e = e' ∧ val s' = σ
  | .terminated, .terminated => True
  | _, _ => False

end

/-- States that can be reached by calls that are `legal`, in any environment, including after exceptions. -/
inductive ReachedBy {S C O : Type} (call : C → Env → S → Res S O) (legal : S → C → Prop) (init : S) : S → Prop
  | init : ReachedBy call legal init init
  | ret {s s' : S} (c : C) (e : Env) (out : O) : ReachedBy call legal init s → legal s c → call c e s = .ok out s' →
      ReachedBy call legal init s'
  | threw {s s' : S} (c : C) (e : Env) (x : Exn) : ReachedBy call legal init s → legal s c → call c e s = .threw x s' →
      ReachedBy call legal init s'

end Spec

section
variable {L A R V X Ty : Type} [DecidableEq L] [DecidableEq R] [DecidableEq Ty]

/-- What a program can reach that uses `indirect` within its preconditions, with an owned type that is passed the allocator;
`ok` restricts what it calls. -/
def Indirect.AwareReach (tr : ATraits A R) (T : AwareSpec A V X) (ok : Op L A V X → Prop) : St L A R (Obj V) → Prop :=
  Spec.ReachedBy (Indirect.call tr (aware T)) (fun s o => Spec.Legal tr (Indirect.abs s) o ∧ ok o) St.init

/-- The same with indirect_cxx14.h. -/
def Indirect14.AwareReach (tr : ATraits A R) (T : AwareSpec A V X) (ok : Op L A V X → Prop) : St L A R (Obj V) → Prop :=
  Spec.ReachedBy (Indirect14.call tr (aware T)) (fun s o => Spec.Legal tr (Indirect.abs s) o ∧ ok o) St.init

/-- The same for `polymorphic`. -/
def Polymorphic.AwareReach (tr : ATraits A R) (P : PAwareSpec A Ty V X) (ok : POp L A Ty V X → Prop) :
    St L A R (PBody Ty V) → Prop :=
  Spec.ReachedBy (Polymorphic.call tr (awareP P)) (fun s o => Spec.PLegal tr (Polymorphic.abs s) o ∧ ok o) St.init

/-- The same with polymorphic_cxx14.h. -/
def Polymorphic14.AwareReach (tr : ATraits A R) (P : PAwareSpec A Ty V X) (ok : POp L A Ty V X → Prop) :
    St L A R (PBody Ty V) → Prop :=
  Spec.ReachedBy (Polymorphic14.call tr (awareP P)) (fun s o => Spec.PLegal tr (Polymorphic.abs s) o ∧ ok o) St.init

end
end Verif
