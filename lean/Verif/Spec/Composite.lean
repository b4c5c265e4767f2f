import Verif.Composite
import Verif.Spec.Abs

/-!
# Specification of classes with `indirect` or `polymorphic` members

First what one member does in its constructors, assignments and destructor, as values (`Behaves`); then what this should
mean for objects with many members (`Copy`, `Moved`, …), legal operations, and reachable states.
`tr`, `T`: the allocator and the owned type of a member; for `polymorphic` the values of `T` are pairs of a dynamic type
and a value.
-/

set_option autoImplicit false

namespace Verif.Spec
open Verif

section
variable {L A R W X S I F : Type} [DecidableEq L]

/-- How a function ends: normally in a state with `Q`, with an exception in a state with `E`, or in `std::terminate` if
`D`.  No other outcome. -/
def Ends (r : Res S Unit) (Q E : S → Prop) (D : Prop) : Prop :=
  match r with
  | .ok _ s => Q s
  | .threw _ s => E s
  | .terminated => D
  | .ub _ => False
  | .diverged => False

/-- `w` is the result of copying `v`: by copy construction, or by copy assignment to an existing object. -/
def Copied (T : TSpec W X) (v w : W) : Prop :=
  (∃ n, T.copy v n = .ok w) ∨ (∃ d n, T.copyAssign d v n = (none, w))

/-- The value of a member copied from one with value `b`: valueless if that was. -/
def CopiedVal (T : TSpec W X) : Option W → Option W → Prop
  | none, b' => b' = none
  | some v, b' => ∃ w, Copied T v w ∧ b' = some w

/-- What copy construction from `b` makes. -/
structure CopyOf (tr : ATraits A R) (T : TSpec W X) (b b' : Box A W) : Prop where
  alloc : b'.alloc = tr.socc b.alloc
  val : match b.val with
    | none => b'.val = none
    | some v => ∃ n w, T.copy v n = .ok w ∧ b'.val = some w

/-- What copy assignment from `b` makes of `a`. -/
structure AssignedCopy (tr : ATraits A R) (T : TSpec W X) (a b a' : Box A W) : Prop where
  alloc : a'.alloc = if tr.pocca then b.alloc else a.alloc
  val : CopiedVal T b.val a'.val

/-- What move assignment makes of target `a` and source `b`: the value itself moves over if the allocators are equal,
otherwise the owned object is moved into a new one, and the source keeps the moved-from object. -/
structure AssignedMove (tr : ATraits A R) (T : TSpec W X) (a b a' b' : Box A W) : Prop where
  alloc : a'.alloc = if tr.pocma then b.alloc else a.alloc
  keep : b'.alloc = b.alloc
  equal : tr.eq a.alloc b.alloc = true → a'.val = b.val ∧ b'.val = none
  unequal : tr.eq a.alloc b.alloc = false →
    match b.val with
    | none => a'.val = none ∧ b'.val = none
    | some v => ∃ w v' n, T.move v n = (.ok w, v') ∧ a'.val = some w ∧ b'.val = some v'

/-- What is required of the type of a member.  `abs` are the objects of a state as values, `Ok` the states in which the
class template keeps its promises. -/
structure Behaves (tr : ATraits A R) (T : TSpec W X) (abs : S → Boxes L A W) (Ok : S → Prop)
    (H : Holder L S W I F) : Prop where
  make : ∀ {s x} (i : I) (e : Env), Ok s → Dead (abs s) x →
    Ends (H.make x i e s) (fun s' => Ok s' ∧ ∃ a v, abs s' = put (abs s) x ⟨a, some v⟩)
      (fun s' => Ok s' ∧ abs s' = abs s) False
  copy : ∀ {s x y b} (e : Env), Ok s → Dead (abs s) x → abs s y = some b →
    Ends (H.copy x y e s) (fun s' => Ok s' ∧ ∃ b', CopyOf tr T b b' ∧ abs s' = put (abs s) x b')
      (fun s' => Ok s' ∧ abs s' = abs s) False
  move : ∀ {s x y b} (e : Env), Ok s → Dead (abs s) x → abs s y = some b →
    Ends (H.move x y e s) (fun s' => Ok s' ∧ abs s' = put (put (abs s) y ⟨b.alloc, none⟩) x b) (fun _ => False) False
  assignSelf : ∀ {s x b} (e : Env), Ok s → abs s x = some b →
    Ends (H.assignCopy x x e s) (fun s' => Ok s' ∧ abs s' = abs s) (fun _ => False) False ∧
    Ends (H.assignMove x x e s) (fun s' => Ok s' ∧ abs s' = abs s) (fun _ => False) False
  assignCopy : ∀ {s x y a b} (e : Env), Ok s → x ≠ y → abs s x = some a → abs s y = some b →
    Ends (H.assignCopy x y e s) (fun s' => Ok s' ∧ ∃ a', AssignedCopy tr T a b a' ∧ abs s' = put (abs s) x a')
      (fun s' => Ok s' ∧ ∃ a', a'.alloc = a.alloc ∧ (a'.val.isSome = a.val.isSome) ∧ abs s' = put (abs s) x a') False
  assignMove : ∀ {s x y a b} (e : Env), Ok s → x ≠ y → abs s x = some a → abs s y = some b →
    Ends (H.assignMove x y e s)
      (fun s' => Ok s' ∧ ∃ a' b', AssignedMove tr T a b a' b' ∧ abs s' = put (put (abs s) y b') x a')
      (fun s' => Ok s' ∧ tr.eq a.alloc b.alloc = false ∧ ∃ b', b'.alloc = b.alloc ∧ (b'.val.isSome = b.val.isSome) ∧
        abs s' = put (abs s) y b')
      (tr.eq a.alloc b.alloc = false ∧ (tr.pocma || tr.alwaysEqual) = true)
  destroy : ∀ {s x b} (e : Env), Ok s → abs s x = some b →
    Ends (H.destroy x e s) (fun s' => Ok s' ∧ abs s' = drop (abs s) x) (fun _ => False) False
  modify : ∀ {s x a v} (f : F) (e : Env), Ok s → abs s x = some ⟨a, some v⟩ →
    Ends (H.modify x f e s) (fun s' => Ok s' ∧ abs s' = put (abs s) x ⟨a, some (H.app f v)⟩) (fun _ => False) False

end

/-! ## Objects with many members -/

section
variable {C A R W X : Type} [DecidableEq C]

/-- Member `k` of `x`, for each `k`. -/
abbrev Comp (C A W : Type) := Boxes (C × Nat) A W

/-- No object `x` is alive. -/
def CDead (σ : Comp C A W) (x : C) : Prop := ∀ k, σ (x, k) = none

/-- Object `x` is alive: it has exactly the members `0, …, K-1`. -/
def CLive (K : Nat) (σ : Comp C A W) (x : C) : Prop := ∀ k, k < K ↔ ∃ b, σ (x, k) = some b

/-- All objects but those listed are as before. -/
def CSame (σ σ' : Comp C A W) (xs : List C) : Prop := ∀ z, z ∉ xs → ∀ k, σ' (z, k) = σ (z, k)

/-- The location is not one of the first `k` members of `x`. -/
def Outside (x : C) (k : Nat) (l : C × Nat) : Prop := ¬ (l.1 = x ∧ l.2 < k)

/-- Memberwise copy assignment up to member `n`. -/
def CopyAssigned (tr : ATraits A R) (T : Nat → TSpec W X) (σ σ' : Comp C A W) (x y : C) (n : Nat) : Prop :=
  ∀ k, k < n → ∃ a b a', σ (x, k) = some a ∧ σ (y, k) = some b ∧ AssignedCopy tr (T k) a b a' ∧ σ' (x, k) = some a'

/-- Memberwise move assignment up to member `n`. -/
def MoveAssigned (tr : ATraits A R) (T : Nat → TSpec W X) (σ σ' : Comp C A W) (x y : C) (n : Nat) : Prop :=
  ∀ k, k < n → ∃ a b a' b', σ (x, k) = some a ∧ σ (y, k) = some b ∧ AssignedMove tr (T k) a b a' b' ∧
    σ' (x, k) = some a' ∧ σ' (y, k) = some b'

/-- Between operations, every object has all its members or none. -/
def Whole (K : Nat) (σ : Comp C A W) : Prop := ∀ x, CDead σ x ∨ CLive K σ x

/-- Preconditions. -/
def CLegal {I F : Type} (K : Nat) (σ : Comp C A W) : Composite.COp C I F → Prop
  | .make x _ => CDead σ x
  | .copy x y => CDead σ x ∧ CLive K σ y
  | .move x y => CDead σ x ∧ CLive K σ y
  | .destroy x => CLive K σ x
  | .assignCopy x y => CLive K σ x ∧ CLive K σ y
  | .assignMove x y => CLive K σ x ∧ CLive K σ y
  | .modify x k _ => Engaged σ (x, k)

end
end Verif.Spec

namespace Verif.Composite
open Spec
section
variable {C S A W I F : Type} [DecidableEq C]

/-- States reachable from `init` by legal operations, in any environment, including after exceptions. -/
inductive Reach (H : Members C S W I F) (K : Nat) (abs : S → Comp C A W) (init : S) : S → Prop
  | init : Reach H K abs init init
  | ret {s s' : S} (o : COp C I F) (es : Nat → Env) : Reach H K abs init s → CLegal K (abs s) o →
      call H K o es s = .ok () s' → Reach H K abs init s'
  | threw {s s' : S} (o : COp C I F) (es : Nat → Env) (e : Exn) : Reach H K abs init s → CLegal K (abs s) o →
      call H K o es s = .threw e s' → Reach H K abs init s'

end
end Verif.Composite
