import Verif.Spec.World

/-!
# Histories of programs with recursive nodes

Which states a program can reach, and which places a statement may change.
-/

set_option autoImplicit false

namespace Verif
namespace Node
open Verif

section
variable {N A R V X : Type} [DecidableEq N] [DecidableEq R]

/-- In state `s` every variable holds its tree of `W`. -/
def Shows (res : A → R) (K : Nat) (W : N → Tree A V) (s : NSt N A R V) : Prop :=
  ∀ x, Holds res K s (s.hs (.var x)) (W x)

/-- States reached from the empty state by statements that are legal where they are run; a statement may
return or throw. -/
inductive Reach (tr : ATraits A R) (T : TSpec V X) (K : Nat) : NSt N A R V → Prop
  | start (e : Env) : Reach tr T K (start e)
  | ok {s s' : NSt N A R V} {W : N → Tree A V} {c : NCall N A X} (h : Reach tr T K s)
      (hW : Shows tr.res K W s) (hL : Legal tr K W c.depth c.op) (hr : call tr T K c s = .ok () s') :
      Reach tr T K s'
  | threw {s s' : NSt N A R V} {W : N → Tree A V} {c : NCall N A X} {e : Exn} (h : Reach tr T K s)
      (hW : Shows tr.res K W s) (hL : Legal tr K W c.depth c.op) (hr : call tr T K c s = .threw e s') :
      Reach tr T K s'

/-- The places whose trees a statement may change. -/
def changes : NOp N A X → List (Path N)
  | .make P _ _ => [P]
  | .copy P _ => [P]
  | .copyA P _ _ => [P]
  | .moveA P _ Q => [P, Q]
  | .move P Q => [P, Q]
  | .drop P => [P]
  | .assign P _ => [P]
  | .moveAssign P Q => [P, Q]
  | .swap P Q => [P, Q]
  | .set P _ => [P]
  | .setCopy P _ => [P]
  | .setMove P Q => [P, Q]

/-- The place reached from `P` by further member accesses. -/
def below (P : Path N) (way : List Nat) : Path N := ⟨P.root, P.steps ++ way⟩

/-- Every member access is to the last member of a node. -/
def LastOnly (K : Nat) (way : List Nat) : Prop := ∀ m ∈ way, m + 1 = K

end
end Node
end Verif
