import Verif.Spec.Block

/-!
# Specification of constant evaluation

What it takes for a call of a `consteval` function without arguments to be a constant expression, as far as the library can make a
difference: no undefined behaviour, no exception, nothing that is allocated and not freed, and the same result wherever storage is.
-/

set_option autoImplicit false

namespace Verif.Spec
open Verif

section
variable {V X Ty : Type}

/-- The operations of the owned type do not throw, and have the same result every time. -/
structure Steady (T : TSpec V X) : Prop where
  make : ∀ u, ∃ v, ∀ n, T.make u n = .ok v
  copy : ∀ v, ∃ w, ∀ n, T.copy v n = .ok w
  move : ∀ v, ∃ w u, ∀ n, T.move v n = (.ok w, u)
  copyAssign : ∀ d v, ∃ w, ∀ n, T.copyAssign d v n = (none, w)
  moveAssign : ∀ d v, ∃ w u, ∀ n, T.moveAssign d v n = (none, w, u)
  assignArg : ∀ d x, ∃ w, ∀ n, T.assignArg d x n = (none, w)

/-- So do its comparisons and its hash. -/
structure SteadyCmp (C : TCmp V) : Prop where
  threeWay : ∀ g, C.threeWay = some g → ∀ v w, ∃ c, ∀ n, g v w n = .ok c
  eq : ∀ v w, ∃ b, ∀ n, C.eq v w n = .ok b
  ne : ∀ v w, ∃ b, ∀ n, C.ne v w n = .ok b
  lt : ∀ v w, ∃ b, ∀ n, C.lt v w n = .ok b
  gt : ∀ v w, ∃ b, ∀ n, C.gt v w n = .ok b
  le : ∀ v w, ∃ b, ∀ n, C.le v w n = .ok b
  ge : ∀ v w, ∃ b, ∀ n, C.ge v w n = .ok b
  hash : ∀ v, ∃ h, ∀ n, C.hash v n = .ok h

/-- The same for the types that a `polymorphic` may own. -/
structure SteadyP (P : PSpec Ty V X) : Prop where
  make : ∀ ty u, ∃ v, ∀ n, P.make ty u n = .ok v
  copy : ∀ ty v, ∃ w, ∀ n, P.copy ty v n = .ok w
  move : ∀ ty v, ∃ w u, ∀ n, P.move ty v n = (.ok w, u)

end

section
variable {L A R B C O : Type}

/-- The program does not throw by itself, as long as no call throws. -/
def Quiet {α : Type} : Block C O α → Prop
  | .ret _ => True
  | .throw _ => False
  | .call _ k => ∀ o, Quiet (k (.ret o))
  | .declare _ _ body k => Quiet body ∧ ∀ r, Quiet (k (.ok r))

/-- Storage is available in every call of the run. -/
def Served {α : Type} (call : C → Env → St L A R B → Res (St L A R B) O) : Client C O α → (Nat → Env) → St L A R B → Prop
  | .ret _, _, _ => True
  | .call c k, es, s => available s (es 0) = true ∧
    match call c (es 0) s with
    | .ok o s' => Served call (k (.ret o)) (fun i => es (i + 1)) s'
    | .threw e s' => Served call (k (.exn e)) (fun i => es (i + 1)) s'
    | _ => True

variable [DecidableEq R]

/-- The program is a constant expression with value `a`: it can run, and wherever storage comes from and whatever else the environment
decides, it returns `a` and leaves nothing behind. -/
def IsConstant {α : Type} (call : C → Env → St L A R B → Res (St L A R B) O) (p : Client C O (Except Exn α)) (a : α) : Prop :=
  (∃ es, Served call p es St.init) ∧
  ∀ es, Served call p es St.init → ∃ s', p.run call es St.init = .ok (.ok a) s' ∧ AllGone s'

end
end Verif.Spec
