import Verif.Members
import Verif.Spec.Wrapper

/-!
# What is expected of UniquePtrMember and VariantWrapperMember

Objects as values.  From the model only `Op`, `Slot` and machine states are used.
-/

set_option autoImplicit false

namespace Verif.Members
open Verif

namespace UniquePtr
section
variable {L V X : Type} [DecidableEq L]

/-- What is named in a step exists, or does not yet exist. -/
def Legal (s : St L Unit Unit (Obj V)) : Op L → Prop
  | .make x => ¬ Wrapper.Alive s x
  | .copy x y | .move x y => ¬ Wrapper.Alive s x ∧ Wrapper.Alive s y
  | .swap x y => Wrapper.Alive s x ∧ Wrapper.Alive s y
  | .destroy x => Wrapper.Alive s x

/-- States between the steps of programs. -/
inductive Reach (T : TSpec V X) : St L Unit Unit (Obj V) → Prop
  | init : Reach T St.init
  | ret {s s' : St L Unit Unit (Obj V)} (o : Op L) (e : Env) :
      Reach T s → Legal s o → call (plain T) o e s = .ok () s' → Reach T s'
  | threw {s s' : St L Unit Unit (Obj V)} (o : Op L) (e : Env) (x : Exn) :
      Reach T s → Legal s o → call (plain T) o e s = .threw x s' → Reach T s'

/-- What should happen: `mem` says whether storage can be had, `n` decides what the operation of `T` does.  An exception
with the unchanged values, or the new values. -/
def expected (T : TSpec V X) (mem : Bool) (n : Nat) (σ : L → Option V) : Op L → Except Exn (L → Option V)
  | .make x => if mem then (T.make .none n).map fun v => upd σ x (some v) else .error .badAlloc
  | .copy x y | .move x y =>
    match σ y with
    | some v => if mem then (T.copy v n).map fun w => upd σ x (some w) else .error .badAlloc
    | none => .ok σ
  | .swap x y => .ok (upd (upd σ x (σ y)) y (σ x))
  | .destroy x => .ok (upd σ x none)

/-- The step did what was expected of it. -/
def Meets (T : TSpec V X) (mem : Bool) (n : Nat) (s : St L Unit Unit (Obj V)) (o : Op L) :
    Res (St L Unit Unit (Obj V)) Unit → Prop
  | .ok _ s' => expected T mem n (Wrapper.value s) o = .ok (Wrapper.value s')
  | .threw x s' => expected T mem n (Wrapper.value s) o = .error x ∧ Wrapper.value s' = Wrapper.value s
  | _ => False

/-- A program; exceptions are caught between the steps. -/
def run (T : TSpec V X) : List (Op L × Env) → St L Unit Unit (Obj V) → Run (St L Unit Unit (Obj V)) Unit :=
  runWith fun c s => call (plain T) c.1 c.2 s

/-- Every object named by the program exists when it is named. -/
def LegalRun (T : TSpec V X) : List (Op L × Env) → St L Unit Unit (Obj V) → Prop :=
  LegalWith (fun c s => call (plain T) c.1 c.2 s) (fun s c => Legal s c.1)

end
end UniquePtr

namespace Variant

/-- The values of these objects. -/
inductive Val (V : Type) where
  | valueless
  | int (n : Int)
  | wrapped (v : V)
  deriving DecidableEq, Repr

section
variable {L V X : Type} [DecidableEq L]

/-- No object exists. -/
def start : VS L V := (St.init, fun _ => .dead)

/-- The value of each object (`none`: no object). -/
def value (s : VS L V) (x : L) : Option (Val V) :=
  match s.2 x with
  | .dead => none
  | .valueless => some .valueless
  | .int n => some (.int n)
  | .held => (Wrapper.value s.1 x).map .wrapped

/-- There is an object `x`. -/
def Alive (s : VS L V) (x : L) : Prop := s.2 x ≠ .dead

/-- What is named in a step exists, or does not yet exist. -/
def Legal (s : VS L V) : Op L → Prop
  | .make x => ¬ Alive s x
  | .copy x y | .move x y => ¬ Alive s x ∧ Alive s y
  | .assignInt x _ => Alive s x
  | .assign x y => Alive s x ∧ Alive s y
  | .destroy x => Alive s x

/-- The step is an assignment between different objects that both hold a wrapper. -/
def Assigns (s : VS L V) : Op L → Prop
  | .assign x y => x ≠ y ∧ s.2 x = .held ∧ s.2 y = .held
  | _ => False

/-- States between the steps of programs without such assignments. -/
inductive Reach (T : TSpec V X) : VS L V → Prop
  | init : Reach T start
  | ret {s s' : VS L V} (o : Op L) (e : Env) :
      Reach T s → Legal s o → ¬ Assigns s o → call (plain T) o e s = .ok () s' → Reach T s'
  | threw {s s' : VS L V} (o : Op L) (e : Env) (x : Exn) :
      Reach T s → Legal s o → ¬ Assigns s o → call (plain T) o e s = .threw x s' → Reach T s'

/-- An attempt to construct a `T`. -/
def attempt (mem : Bool) (r : Except Exn V) : Except Exn V := if mem then r else .error .badAlloc

/-- `x` is to get a wrapped value that may or may not come about; if it does not the values are `σ₀`. -/
def give (σ σ₀ : L → Option (Val V)) (x : L) : Except Exn V → Option Exn × (L → Option (Val V))
  | .ok v => (none, upd σ x (some (.wrapped v)))
  | .error e => (some e, σ₀)

/-- What should happen: the exception, if there is one, and the values afterwards. -/
def expected (T : TSpec V X) (mem : Bool) (n : Nat) (σ : L → Option (Val V)) :
    Op L → Option Exn × (L → Option (Val V))
  | .make x => give σ σ x (attempt mem (T.make .none n))
  | .copy x y | .move x y =>
    match σ y with
    | some (.wrapped v) => give σ σ x (attempt mem (T.copy v n))
    | u => (none, upd σ x u)
  | .assignInt x k => (none, upd σ x (some (.int k)))
  | .assign x y =>
    match σ x, σ y with
    | some (.wrapped _), some (.wrapped v) => (none, upd σ x (some (.wrapped v)))
    | _, some (.wrapped v) => give σ (upd σ x (some .valueless)) x (attempt mem (T.copy v n))
    | _, u => (none, upd σ x u)
  | .destroy x => (none, upd σ x none)

/-- The step did what was expected of it. -/
def Meets (T : TSpec V X) (mem : Bool) (n : Nat) (s : VS L V) (o : Op L) : Res (VS L V) Unit → Prop
  | .ok _ s' => expected T mem n (value s) o = (none, value s')
  | .threw x s' => expected T mem n (value s) o = (some x, value s')
  | _ => False

/-- A program; exceptions are caught between the steps. -/
def run (T : TSpec V X) : List (Op L × Env) → VS L V → Run (VS L V) Unit :=
  runWith fun c s => call (plain T) c.1 c.2 s

/-- Every object named by the program exists when it is named, and no wrapper is assigned to a different one. -/
def LegalRun (T : TSpec V X) : List (Op L × Env) → VS L V → Prop :=
  LegalWith (fun c s => call (plain T) c.1 c.2 s) (fun s c => Legal s c.1 ∧ ¬ Assigns s c.1)

/-- Comparison of values, given the comparison of `T`. -/
def same (eqT : V → V → Bool) : Val V → Val V → Bool
  | .valueless, .valueless => true
  | .int m, .int n => m == n
  | .wrapped v, .wrapped w => eqT v w
  | _, _ => false

end
end Variant
end Verif.Members
