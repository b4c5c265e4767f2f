import Verif.Wrapper
import Verif.Spec.Run

/-!
# What is expected of wrappers

Objects as values: a live object has a value.  From the model only `Op` and machine states are used.
-/

set_option autoImplicit false

namespace Verif.Wrapper
open Verif

section
variable {L V X : Type} [DecidableEq L]

/-- The value of each live object (`none`: no object, or no value). -/
def value (s : St L Unit Unit (Obj V)) (x : L) : Option V := Spec.valueOf (Indirect.abs s) x

/-- There is an object `x`. -/
def Alive (s : St L Unit Unit (Obj V)) (x : L) : Prop := ∃ h, s.hs x = some h

/-- What is named in a step exists, or does not yet exist. -/
def Legal (s : St L Unit Unit (Obj V)) : Op L → Prop
  | .make x => ¬ Alive s x
  | .copy x y => ¬ Alive s x ∧ Alive s y
  | .move x y => ¬ Alive s x ∧ Alive s y
  | .assign x y => Alive s x ∧ Alive s y
  | .destroy x => Alive s x

/-- The step is an assignment between different objects. -/
def Assigns : Op L → Prop
  | .assign x y => x ≠ y
  | _ => False

/-- States between the steps of programs that never assign an object to a different one. -/
inductive Reach (T : TSpec V X) : St L Unit Unit (Obj V) → Prop
  | init : Reach T St.init
  | ret {s s' : St L Unit Unit (Obj V)} (o : Op L) (e : Env) :
      Reach T s → Legal s o → ¬ Assigns o → call (plain T) o e s = .ok () s' → Reach T s'
  | threw {s s' : St L Unit Unit (Obj V)} (o : Op L) (e : Env) (x : Exn) :
      Reach T s → Legal s o → ¬ Assigns o → call (plain T) o e s = .threw x s' → Reach T s'

/-- What should happen: `mem` says whether storage can be had, `n` decides what the operation of `T` does.  An exception
with the unchanged values, or the new values. -/
def expected (T : TSpec V X) (mem : Bool) (n : Nat) (σ : L → Option V) : Op L → Except Exn (L → Option V)
  | .make x => if mem then (T.make .none n).map fun v => upd σ x (some v) else .error .badAlloc
  | .copy x y | .move x y =>
    match σ y with
    | some v => if mem then (T.copy v n).map fun w => upd σ x (some w) else .error .badAlloc
    | none => .ok σ
  | .assign x y => .ok (upd σ x (σ y))
  | .destroy x => .ok (upd σ x none)

/-- The step did what was expected of it. -/
def Meets (T : TSpec V X) (mem : Bool) (n : Nat) (s : St L Unit Unit (Obj V)) (o : Op L) :
    Res (St L Unit Unit (Obj V)) Unit → Prop
  | .ok _ s' => expected T mem n (value s) o = .ok (value s')
  | .threw x s' => expected T mem n (value s) o = .error x ∧ value s' = value s
  | _ => False

/-- A program; exceptions are caught between the steps. -/
def run (T : TSpec V X) : List (Op L × Env) → St L Unit Unit (Obj V) → Run (St L Unit Unit (Obj V)) Unit :=
  runWith fun c s => call (plain T) c.1 c.2 s

/-- Every object named by the program exists when it is named, and none is assigned to a different one. -/
def LegalRun (T : TSpec V X) : List (Op L × Env) → St L Unit Unit (Obj V) → Prop :=
  LegalWith (fun c s => call (plain T) c.1 c.2 s) (fun s c => Legal s c.1 ∧ ¬ Assigns c.1)

end
end Verif.Wrapper
