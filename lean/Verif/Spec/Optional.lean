import Verif.Optional
import Verif.Spec.Composite

/-!
# Specification of optionals of `indirect` or `polymorphic`

An optional as a value: empty, or an indirect (allocator, and owned value unless it is valueless).
-/

set_option autoImplicit false

namespace Verif.Spec
open Verif

/-- The optionals and variables of a program, as values.  `opts x = none`: no optional `x` is alive; `some none`: `x` is
empty; `some (some b)`: `x.has_value()`, and `*x` is `b`. -/
structure OState (C A W : Type) where
  opts : C → Option (Option (Box A W))
  vars : C → Option (Box A W)

section
variable {C L S A R W X I F : Type} [DecidableEq C] [DecidableEq L]

/-- The optional `x` becomes `o`. -/
def OState.setOpt (σ : OState C A W) (x : C) (o : Option (Option (Box A W))) : OState C A W :=
  { σ with opts := fun z => if z = x then o else σ.opts z }

/-- The variable `y` becomes `b`. -/
def OState.setVar (σ : OState C A W) (y : C) (b : Option (Box A W)) : OState C A W :=
  { σ with vars := fun z => if z = y then b else σ.vars z }

/-- The values of optionals and variables, by the objects of the element type and the flags. -/
def oview (β : Boxes (Optional.Cell C) A W) (f : C → Option Bool) : OState C A W where
  opts x :=
    match f x with
    | none => none
    | some false => some none
    | some true => (β (.inside x)).map some
  vars y := β (.var y)

/-- The values of a machine state. -/
def ostate (abs : S → Boxes (Optional.Cell C) A W) (s : Optional.OS C S) : OState C A W := oview (abs s.1) s.2

/-- Two boxes may be swapped. -/
def MaySwap (tr : ATraits A R) (a b : Box A W) : Prop := tr.pocs = true ∨ tr.eq a.alloc b.alloc = true

/-- What `a` is after it was swapped with `b`: its value is that of `b`, its allocator only if allocators propagate. -/
def swappedWith (tr : ATraits A R) (a b : Box A W) : Box A W := ⟨if tr.pocs then b.alloc else a.alloc, b.val⟩

/-- What is required of the function `swap` of the element type. -/
structure Swaps (tr : ATraits A R) (abs : S → Boxes L A W) (Ok : S → Prop) (sw : L → L → Env → M S Unit) : Prop where
  swap : ∀ {s x y a b} (e : Env), Ok s → x ≠ y → abs s x = some a → abs s y = some b → MaySwap tr a b →
    Ends (sw x y e s)
      (fun s' => Ok s' ∧ abs s' = put (put (abs s) y (swappedWith tr b a)) x (swappedWith tr a b))
      (fun _ => False) False
  self : ∀ {s x a} (e : Env), Ok s → abs s x = some a →
    Ends (sw x x e s) (fun s' => Ok s' ∧ abs s' = abs s) (fun _ => False) False

/-- Copy construction of an optional. -/
def OptCopy (tr : ATraits A R) (T : TSpec W X) : Option (Box A W) → Option (Box A W) → Prop
  | none, o' => o' = none
  | some b, o' => ∃ b', CopyOf tr T b b' ∧ o' = some b'

/-- What is left of an optional, or of a variable, that was moved from: it still contains an object, which is valueless. -/
def leftBehind (b : Box A W) : Box A W := ⟨b.alloc, none⟩

/-- Copy assignment: target, source, target afterwards. -/
def OptAssignCopy (tr : ATraits A R) (T : TSpec W X) : Option (Box A W) → Option (Box A W) → Option (Box A W) → Prop
  | some a, some b, o' => ∃ a', AssignedCopy tr T a b a' ∧ o' = some a'
  | none, some b, o' => ∃ b', CopyOf tr T b b' ∧ o' = some b'
  | _, none, o' => o' = none

/-- Copy assignment that throws: target, target afterwards.  An empty optional stays empty; one that contains an object keeps
it, with its allocator, and it owns an object exactly if it did. -/
def OptAssignCopyThrew : Option (Box A W) → Option (Box A W) → Prop
  | none, o' => o' = none
  | some a, o' => ∃ a' : Box A W, a'.alloc = a.alloc ∧ a'.val.isSome = a.val.isSome ∧ o' = some a'

/-- Move assignment: target, source, both afterwards. -/
def OptAssignMove (tr : ATraits A R) (T : TSpec W X) :
    Option (Box A W) → Option (Box A W) → Option (Box A W) → Option (Box A W) → Prop
  | some a, some b, o', p' => ∃ a' b', AssignedMove tr T a b a' b' ∧ o' = some a' ∧ p' = some b'
  | none, some b, o', p' => o' = some b ∧ p' = some (leftBehind b)
  | _, none, o', p' => o' = none ∧ p' = none

/-- Move assignment that throws: target, source, source afterwards.  Only if both contain an object, with unequal allocators. -/
def OptAssignMoveThrew (tr : ATraits A R) : Option (Box A W) → Option (Box A W) → Option (Box A W) → Prop
  | some a, some b, p' => tr.eq a.alloc b.alloc = false ∧
      ∃ b' : Box A W, b'.alloc = b.alloc ∧ b'.val.isSome = b.val.isSome ∧ p' = some b'
  | _, _, _ => False

/-- Both contain objects, with unequal allocators. -/
def OptUnequal (tr : ATraits A R) : Option (Box A W) → Option (Box A W) → Prop
  | some a, some b => tr.eq a.alloc b.alloc = false
  | _, _ => False

/-- What `swap` makes of the first and of the second. -/
def OptSwap (tr : ATraits A R) : Option (Box A W) → Option (Box A W) → Option (Box A W) × Option (Box A W)
  | some a, some b => (some (swappedWith tr a b), some (swappedWith tr b a))
  | o, p => (p, o)

/-- Preconditions. -/
def OLegal (tr : ATraits A R) (σ : OState C A W) : Optional.OOp C I F → Prop
  | .make y _ => σ.vars y = none
  | .destroyVar y => ∃ b, σ.vars y = some b
  | .none x => σ.opts x = none
  | .inPlace x _ => σ.opts x = none
  | .fromCopy x y => σ.opts x = none ∧ ∃ b, σ.vars y = some b
  | .fromMove x y => σ.opts x = none ∧ ∃ b, σ.vars y = some b
  | .copy x y => σ.opts x = none ∧ ∃ o, σ.opts y = some o
  | .move x y => σ.opts x = none ∧ ∃ o, σ.opts y = some o
  | .destroy x => ∃ o, σ.opts x = some o
  | .reset x => ∃ o, σ.opts x = some o
  | .emplace x _ => ∃ o, σ.opts x = some o
  | .assignCopy x y => (∃ o, σ.opts x = some o) ∧ ∃ o, σ.opts y = some o
  | .assignMove x y => (∃ o, σ.opts x = some o) ∧ ∃ o, σ.opts y = some o
  | .setCopy x y => (∃ o, σ.opts x = some o) ∧ ∃ b, σ.vars y = some b
  | .setMove x y => (∃ o, σ.opts x = some o) ∧ ∃ b, σ.vars y = some b
  | .swap x y => ∃ o p, σ.opts x = some o ∧ σ.opts y = some p ∧ ∀ a b, o = some a → p = some b → MaySwap tr a b
  | .takeCopy y x => σ.vars y = none ∧ ∃ o, σ.opts x = some o
  | .takeMove y x => σ.vars y = none ∧ ∃ o, σ.opts x = some o
  | .modify x _ => ∃ a v, σ.opts x = some (some ⟨a, some v⟩)

end
end Verif.Spec

namespace Verif.Optional
open Spec
section
variable {C S A R W I F : Type} [DecidableEq C]

/-- States reachable from `init`, without optionals, by legal operations, in any environment, including after exceptions. -/
inductive Reach (tr : ATraits A R) (H : Holder (Cell C) S W I F) (sw : Cell C → Cell C → Env → M S Unit)
    (abs : S → Boxes (Cell C) A W) (init : S) : OS C S → Prop
  | init : Reach tr H sw abs init (init, fun _ => none)
  | ret {s s' : OS C S} (o : OOp C I F) (es : Nat → Env) : Reach tr H sw abs init s → OLegal tr (ostate abs s) o →
      call H sw o es s = .ok () s' → Reach tr H sw abs init s'
  | threw {s s' : OS C S} (o : OOp C I F) (es : Nat → Env) (e : Exn) : Reach tr H sw abs init s →
      OLegal tr (ostate abs s) o → call H sw o es s = .threw e s' → Reach tr H sw abs init s'

end
end Verif.Optional
