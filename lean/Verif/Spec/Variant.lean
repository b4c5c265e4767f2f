import Verif.Variant
import Verif.Spec.Composite

/-!
# Specification of variants with `indirect` or `polymorphic` alternatives

A variant as a value: valueless by exception, a value of the first alternative, or an indirect (number of the alternative,
allocator and owned value).
-/

set_option autoImplicit false

namespace Verif.Spec
open Verif

/-- What a variant is. -/
inductive Alt (N A W : Type) where
  | valueless
  | plain (v : N)
  | held (k : Nat) (b : Box A W)
  deriving DecidableEq

/-- All variants. -/
abbrev Variants (C N A W : Type) := C → Option (Alt N A W)

section
variable {C S A R W X I F N Y : Type} [DecidableEq C]

/-- The variant at `x` becomes `a`. -/
def vset (σ : Variants C N A W) (x : C) (a : Option (Alt N A W)) : Variants C N A W := fun z => if z = x then a else σ z

/-- The variants of a machine state as values. -/
def variants (abs : S → Comp C A W) (s : Variant.VS C S N) : Variants C N A W := fun x =>
  match s.2 x with
  | .dead => none
  | .valueless => some .valueless
  | .plain v => some (.plain v)
  | .held k => (abs s.1 (x, k)).map (.held k)

/-- The declared noexcept of the first alternative is true. -/
structure Plain.Honest (P : Variant.Plain N Y) : Prop where
  copy : P.nothrowCopy = true → ∀ v n, ∃ w, P.ops.copy v n = .ok w
  move : P.nothrowMove = true → ∀ v n, ∃ w, (P.ops.move v n).1 = .ok w

variable (tr : ATraits A R) (T : Nat → TSpec W X) (P : Variant.Plain N Y)

/-- Copy construction. -/
def AltCopy : Alt N A W → Alt N A W → Prop
  | .valueless, a' => a' = .valueless
  | .plain v, a' => ∃ n w, P.ops.copy v n = .ok w ∧ a' = .plain w
  | .held k b, a' => ∃ b', CopyOf tr (T k) b b' ∧ a' = .held k b'

/-- Move construction: the new variant and what is left of the source. -/
def AltMove : Alt N A W → Alt N A W → Alt N A W → Prop
  | .valueless, a', b' => a' = .valueless ∧ b' = .valueless
  | .plain v, a', b' => ∃ n w v', P.ops.move v n = (.ok w, v') ∧ a' = .plain w ∧ b' = .plain v'
  | .held k b, a', b' => a' = .held k b ∧ b' = .held k ⟨b.alloc, none⟩

/-- Move construction that throws: what is left of the source.  Only the first alternative can throw. -/
def AltMoveThrew : Alt N A W → Alt N A W → Prop
  | .plain v, b' => P.nothrowMove = false ∧ ∃ n e v', P.ops.move v n = (.error e, v') ∧ b' = .plain v'
  | _, _ => False

/-- The variants hold the same alternative. -/
def SameAlt : Alt N A W → Alt N A W → Prop
  | .plain _, .plain _ => True
  | .held i _, .held j _ => i = j
  | _, _ => False

/-- Assignment within an alternative (the first argument is the target, the third the result). -/
def AltAssignCopy : Alt N A W → Alt N A W → Alt N A W → Prop
  | .plain d, .plain v, a' => ∃ n w, P.ops.copyAssign d v n = (none, w) ∧ a' = .plain w
  | .held k a, .held _ b, a' => ∃ c, AssignedCopy tr (T k) a b c ∧ a' = .held k c
  | _, _, _ => False

/-- Assignment within an alternative that throws: what is left of the target. -/
def AltAssignCopyThrew : Alt N A W → Alt N A W → Alt N A W → Prop
  | .plain d, .plain v, a' => ∃ n e w, P.ops.copyAssign d v n = (some e, w) ∧ a' = .plain w
  | .held k a, .held _ _, a' => ∃ c : Box A W, c.alloc = a.alloc ∧ c.val.isSome = a.val.isSome ∧ a' = .held k c
  | _, _, _ => False

/-- Move assignment within an alternative: what becomes of target and source. -/
def AltAssignMove : Alt N A W → Alt N A W → Alt N A W → Alt N A W → Prop
  | .plain d, .plain v, a', b' => ∃ n w v', P.ops.moveAssign d v n = (none, w, v') ∧ a' = .plain w ∧ b' = .plain v'
  | .held k a, .held _ b, a', b' => ∃ c d, AssignedMove tr (T k) a b c d ∧ a' = .held k c ∧ b' = .held k d
  | _, _, _, _ => False

/-- Move assignment within an alternative that throws: what is left of target and source. -/
def AltAssignMoveThrew : Alt N A W → Alt N A W → Alt N A W → Alt N A W → Prop
  | .plain d, .plain v, a', b' => ∃ n e w v', P.ops.moveAssign d v n = (some e, w, v') ∧ a' = .plain w ∧ b' = .plain v'
  | .held k a, .held _ b, a', b' => tr.eq a.alloc b.alloc = false ∧ a' = .held k a ∧
      ∃ d : Box A W, d.alloc = b.alloc ∧ d.val.isSome = b.val.isSome ∧ b' = .held k d
  | _, _, _, _ => False

/-- The variants hold the same indirect alternative, with unequal allocators. -/
def UnequalAllocators : Alt N A W → Alt N A W → Prop
  | .held i a, .held j b => i = j ∧ tr.eq a.alloc b.alloc = false
  | _, _ => False

/-- The result of copying something that is then moved on, or not. -/
def CopiedOver (b a' : Alt N A W) : Prop := AltCopy tr T P b a' ∨ ∃ c c', AltCopy tr T P b c ∧ AltMove P c a' c'

/-- Is the type that the variant holds nothrow move constructible? -/
def NothrowMove (H : Composite.Members C S W I F) : Alt N A W → Bool
  | .valueless => true
  | .plain _ => P.nothrowMove
  | .held k _ => (H k).nothrowMove

/-- What copy assignment to `x` makes of it. -/
def CopyAssigns (a b a' : Alt N A W) : Prop :=
  (SameAlt a b → AltAssignCopy tr T P a b a') ∧ (¬ SameAlt a b → CopiedOver tr T P b a')

/-- What copy assignment to `x` that throws leaves there. -/
def CopyAssignsThrew (H : Composite.Members C S W I F) (a b a' : Alt N A W) : Prop :=
  (SameAlt a b → AltAssignCopyThrew P a b a') ∧ (¬ SameAlt a b → a' = if NothrowMove P H b then a else .valueless)

/-- What move assignment makes of target and source. -/
def MoveAssigns (a b a' b' : Alt N A W) : Prop :=
  (SameAlt a b → AltAssignMove tr T P a b a' b') ∧ (¬ SameAlt a b → AltMove P b a' b')

/-- What move assignment that throws leaves of target and source. -/
def MoveAssignsThrew (a b a' b' : Alt N A W) : Prop :=
  (SameAlt a b → AltAssignMoveThrew tr P a b a' b') ∧ (¬ SameAlt a b → AltMoveThrew P b b' ∧ a' = .valueless)

/-- Preconditions. -/
def VLegal (σ : Variants C N A W) : Variant.VOp C I F N Y → Prop
  | .makePlain x _ => σ x = none
  | .makeHeld x _ _ => σ x = none
  | .copy x y => σ x = none ∧ ∃ b, σ y = some b
  | .move x y => σ x = none ∧ ∃ b, σ y = some b
  | .destroy x => ∃ a, σ x = some a
  | .assignCopy x y t => (∃ a, σ x = some a) ∧ (∃ b, σ y = some b) ∧ σ t = none
  | .assignMove x y => (∃ a, σ x = some a) ∧ ∃ b, σ y = some b
  | .emplacePlain x _ => ∃ a, σ x = some a
  | .emplaceHeld x _ _ => ∃ a, σ x = some a
  | .modifyPlain x _ => ∃ v, σ x = some (.plain v)
  | .modifyHeld x _ => ∃ k a v, σ x = some (.held k ⟨a, some v⟩)

/-- `emplace`, and nothing else, destroys the held object before it knows that it can construct the new one. -/
def IsEmplace : Variant.VOp C I F N Y → Prop
  | .emplacePlain _ _ => True
  | .emplaceHeld _ _ _ => True
  | _ => False

end
end Verif.Spec

namespace Verif.Variant
open Spec
section
variable {C S A W I F N Y : Type} [DecidableEq C]

/-- States reachable by legal operations, of those in `Allowed`, in any environment, including after exceptions.  At
first there is no variant. -/
inductive Reach (H : Composite.Members C S W I F) (P : Plain N Y) (abs : S → Comp C A W) (init : S)
    (Allowed : VOp C I F N Y → Prop) : VS C S N → Prop
  | init : Reach H P abs init Allowed (init, fun _ => .dead)
  | ret {s s' : VS C S N} (o : VOp C I F N Y) (es : Nat → Env) : Reach H P abs init Allowed s → Allowed o →
      VLegal (variants abs s) o → call H P o es s = .ok () s' → Reach H P abs init Allowed s'
  | threw {s s' : VS C S N} (o : VOp C I F N Y) (es : Nat → Env) (e : Exn) : Reach H P abs init Allowed s → Allowed o →
      VLegal (variants abs s) o → call H P o es s = .threw e s' → Reach H P abs init Allowed s'

end
end Verif.Variant
