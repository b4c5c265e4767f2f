import Verif.Fancy
import Verif.Spec.Run

/-!
# What `indirect` does with pointers that are not plain

The same as with plain pointers: `Same` compares results, `run` and `LegalRun` are as for `indirect` (`Verif/Spec/Run.lean`).
-/

set_option autoImplicit false

namespace Verif.Fancy
open Verif

section
variable {L A R B P : Type} (Q : Pointers L P)

/-- The same result, in the same state up to the representation of pointers. -/
def Same {α : Type} : Res (FSt L A R B P) α → Res (St L A R B) α → Prop
  | .ok a s, .ok b t => a = b ∧ forget Q s = t
  | .threw e s, .threw e' t => e = e' ∧ forget Q s = t
  | .terminated, .terminated => True
  | .ub u, .ub u' => u = u'
  | .diverged, .diverged => True
  | _, _ => False

/-- The same for histories. -/
def SameRun {O : Type} : Run (FSt L A R B P) O → Run (St L A R B) O → Prop
  | .done l s, .done l' t => l = l' ∧ forget Q s = t
  | .terminated l, .terminated l' => l = l'
  | .ub u, .ub u' => u = u'
  | .diverged, .diverged => True
  | _, _ => False

end

section
variable {L A R V X P : Type} [DecidableEq L] [DecidableEq R] (Q : Pointers L P) (tr : ATraits A R) (T : TSpec V X)

/-- A history of calls; as `Indirect.run`. -/
def run : List (Op L A V X × Env) → FSt L A R (Obj V) P → Run (FSt L A R (Obj V) P) (Out L A V) :=
  runWith fun c s => call Q tr (plain T) c.1 c.2 s

/-- The value of every object: found through its pointer. -/
def values (s : FSt L A R (Obj V) P) : Spec.Boxes L A V := fun x =>
  match s.hs x with
  | none => none
  | some h => some ⟨h.alloc, (Q.target (.member x) h.p).bind fun q => (s.heap q).bind (·.body)⟩

/-- Every call is made within its documented preconditions. -/
def LegalRun : List (Op L A V X × Env) → FSt L A R (Obj V) P → Prop :=
  LegalWith (fun c s => call Q tr (plain T) c.1 c.2 s) (fun s c => Spec.Legal tr (values Q s) c.1)

end
end Verif.Fancy
