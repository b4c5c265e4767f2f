import Verif.PolymorphicOps
import Verif.Spec.Box

/-!
# Specification of `polymorphic`

What DRAFT.md says `polymorphic` does.  An object is an allocator and an optional value, as for `indirect`, but the
value comes with its dynamic type: it is a pair of a type and a value.  Copying, moving and destroying use the
operations of the dynamic type, and copy assignment always builds a new object.
-/

set_option autoImplicit false

namespace Verif

/-- All owned types as one: values are pairs of a dynamic type and a value, and every operation is that of the dynamic
type.  Arguments of constructors say which type is made.  Objects are never assigned in place. -/
def PSpec.owned {Ty V X : Type} (P : PSpec Ty V X) : TSpec (Ty × V) (Ty × TArgs X) where
  make xs n :=
    match xs with
    | .pack ((ty, us) :: _) => (P.make ty us n).map (ty, ·)
    | _ => (P.make P.base .none n).map (P.base, ·)
  copy v n := (P.copy v.1 v.2 n).map (v.1, ·)
  move v n := ((P.move v.1 v.2 n).1.map (v.1, ·), (v.1, (P.move v.1 v.2 n).2))
  copyAssign d _ _ := (none, d)
  moveAssign d v _ := (none, d, v)
  assignArg d _ _ := (none, d)
  assignable := false
  copyAssignable := false

namespace Spec
section
variable {L A R Ty V X : Type} [DecidableEq L]

/-- Preconditions of an argument expression of type `ty`: `*y` has to be a `ty`. -/
def PLegalSrc (σ : Boxes L A (Ty × V)) (ty : Ty) : Src L X → Prop
  | .arg _ => True
  | .lval y => ∃ v, valueOf σ y = some (ty, v)
  | .rval y => ∃ v, valueOf σ y = some (ty, v)

/-- Preconditions of a value constructor. -/
def PLegalCtor (σ : Boxes L A (Ty × V)) : PCtor L Ty X → Prop
  | .from ty u => PLegalSrc σ ty u
  | _ => True

/-- Documented preconditions of every call. -/
def PLegal (tr : ATraits A R) (σ : Boxes L A (Ty × V)) : POp L A Ty V X → Prop
  | .make x _ c => Dead σ x ∧ PLegalCtor σ c
  | .copy x y => Dead σ x ∧ Live σ y
  | .copyA x _ y => Dead σ x ∧ Live σ y
  | .move x y => Dead σ x ∧ Live σ y
  | .moveA x _ y => Dead σ x ∧ Live σ y
  | .destroy x => Live σ x
  | .assignCopy x y => Live σ x ∧ Live σ y
  | .assignMove x y => Live σ x ∧ Live σ y
  | .deref x => Engaged σ x
  | .arrow x => Engaged σ x
  | .modify x _ => Engaged σ x
  | .valueless x => Live σ x
  | .getAllocator x => Live σ x
  | .swap x y => LegalSwap tr σ x y
  | .friendSwap x y => LegalSwap tr σ x y

variable (tr : ATraits A R) (P : PSpec Ty V X) (mem : Bool) (n : Nat)

/-- A new object is built by a value constructor. -/
def pbuildCtor (σ : Boxes L A (Ty × V)) : PCtor L Ty X → Except Exn (Ty × V) × Boxes L A (Ty × V)
  | .default => (build mem ((P.make P.base .none n).map (P.base, ·)), σ)
  | .from ty (.arg x) => (build mem ((P.make ty (.pack [x]) n).map (ty, ·)), σ)
  | .from _ (.lval y) => buildFrom P.owned mem n σ (.lval y)
  | .from _ (.rval y) => buildFrom P.owned mem n σ (.rval y)
  | .inPlace ty us => (build mem ((P.make ty (.pack us) n).map (ty, ·)), σ)
  | .ilist ty l us => (build mem ((P.make ty (.ilist l us) n).map (ty, ·)), σ)

/-- The specification of every call. -/
def pstep (σ : Boxes L A (Ty × V)) : POp L A Ty V X → Result L A (Ty × V)
  | .make x a c =>
    store (pbuildCtor P mem n σ c).2 .unit x (a.getD tr.dflt) (pbuildCtor P mem n σ c).1
  | .copy x y =>
    match σ y with
    | none => .illegal
    | some b => copyA P.owned mem n σ x (tr.socc b.alloc) y
  | .copyA x a y => copyA P.owned mem n σ x a y
  | .move x y =>
    match σ y with
    | none => .illegal
    | some b => noexceptIf tr.alwaysEqual (moveA tr P.owned mem n σ x b.alloc y)
  | .moveA x a y => noexceptIf tr.alwaysEqual (moveA tr P.owned mem n σ x a y)
  | .destroy x => .ret .unit (drop σ x)
  | .assignCopy x y => assignCopy tr P.owned mem n σ x y
  | .assignMove x y => assignMove tr P.owned mem n σ x y
  | .deref x => match valueOf σ x with
    | some v => .ret (.value v) σ
    | none => .illegal
  | .arrow x => match valueOf σ x with
    | some v => .ret (.value v) σ
    | none => .illegal
  | .modify x f => match valueOf σ x with
    | some v => .ret .unit (setVal σ x (some (v.1, f v.1 v.2)))
    | none => .illegal
  | .valueless x => match σ x with
    | some b => .ret (.bool b.val.isNone) σ
    | none => .illegal
  | .getAllocator x => match σ x with
    | some b => .ret (.alloc b.alloc) σ
    | none => .illegal
  | .swap x y => swap tr σ x y
  | .friendSwap x y => swap tr σ x y

end
end Spec
end Verif
