import Verif.Block
import Verif.Spec.Client
import Verif.Spec.Trace

/-!
# Specification of programs with local variables

Which calls begin and end lifetimes, and rules that a compiler or a reader can check on the text of a program: variables are used
in their scope only, and a variable whose value is needed is not one that may have been moved from.
-/

set_option autoImplicit false

namespace Verif.Spec
open Verif

/-- What a call does to lifetimes. -/
inductive Life (L : Type) where
  | begins (x : L)
  | ends (x : L)
  | neither

section
variable {L A R V X Q Ty : Type}

/-- Constructors begin a lifetime, the destructor ends it. -/
def life : Op L A V X → Life L
  | .make x _ _ => .begins x
  | .copy x _ => .begins x
  | .copyA x _ _ => .begins x
  | .move x _ => .begins x
  | .moveA x _ _ => .begins x
  | .destroy x => .ends x
  | _ => .neither

/-- The same for `polymorphic`. -/
def plife : POp L A Ty V X → Life L
  | .make x _ _ => .begins x
  | .copy x _ => .begins x
  | .copyA x _ _ => .begins x
  | .move x _ => .begins x
  | .moveA x _ _ => .begins x
  | .destroy x => .ends x
  | _ => .neither

/-- Comparisons and hashes do neither. -/
def elife : Either (Op L A V X) Q → Life L
  | .call o => life o
  | .query _ => .neither

/-- The objects that have to be alive before the call. -/
def uses : Op L A V X → List L
  | .make _ _ (.from u) => srcOperands u
  | .make _ _ (.inPlaceOne u) => srcOperands u
  | .make _ _ _ => []
  | .copy _ y => [y]
  | .copyA _ _ y => [y]
  | .move _ y => [y]
  | .moveA _ _ y => [y]
  | o => operands o

/-- The same for `polymorphic`. -/
def puses : POp L A Ty V X → List L
  | .make _ _ (.from _ u) => srcOperands u
  | .make _ _ _ => []
  | .copy _ y => [y]
  | .copyA _ _ y => [y]
  | .move _ y => [y]
  | .moveA _ _ y => [y]
  | o => poperands o

/-- The same with comparisons and hashes. -/
def euses (quses : Q → List L) : Either (Op L A V X) Q → List L
  | .call o => uses o
  | .query q => quses q

/-- The rule for variables that may be valueless (`M`): moves are from such variables to such variables, what is copied from one
is one, a swap is between two such or two others, and the value of such a variable is not used. -/
def RespectsSrc (M : L → Prop) : Src L X → Prop
  | .arg _ => True
  | .lval y => ¬ M y
  | .rval y => ¬ M y

/-- The rule, call by call. -/
def Respects (M : L → Prop) : Op L A V X → Prop
  | .make _ _ (.from u) => RespectsSrc M u
  | .make _ _ (.inPlaceOne u) => RespectsSrc M u
  | .copy x y => M y → M x
  | .copyA x _ y => M y → M x
  | .assignCopy x y => M y → M x
  | .move x y => M x ∧ M y
  | .moveA x _ y => M x ∧ M y
  | .assignMove x y => M x ∧ M y
  | .assignFrom _ u => RespectsSrc M u
  | .deref x => ¬ M x
  | .arrow x => ¬ M x
  | .modify x _ => ¬ M x
  | .swap x y => M x ↔ M y
  | .friendSwap x y => M x ↔ M y
  | _ => True

/-- The same for `polymorphic`; `*y` is not an argument of a value constructor, since its dynamic type is not known from the text. -/
def PRespects (M : L → Prop) : POp L A Ty V X → Prop
  | .make _ _ (.from _ u) => srcOperands u = []
  | .copy x y => M y → M x
  | .copyA x _ y => M y → M x
  | .assignCopy x y => M y → M x
  | .move x y => M x ∧ M y
  | .moveA x _ y => M x ∧ M y
  | .assignMove x y => M x ∧ M y
  | .deref x => ¬ M x
  | .arrow x => ¬ M x
  | .modify x _ => ¬ M x
  | .swap x y => M x ↔ M y
  | .friendSwap x y => M x ↔ M y
  | _ => True

/-- Comparisons and hashes need no value. -/
def ERespects (M : L → Prop) : Either (Op L A V X) Q → Prop
  | .call o => Respects M o
  | .query _ => True

end

section
variable {L C O : Type}

/-- No object that is not in `M` is valueless. -/
def Full {A V : Type} (M : L → Prop) (σ : Boxes L A V) : Prop := ∀ z b, σ z = some b → ¬ M z → b.val ≠ none

/-- Objects are constructed only by declarations, and destroyed only at the end of the block of their declaration. -/
def Scoped (life : C → Life L) {α : Type} : Block C O α → Prop
  | .ret _ => True
  | .throw _ => True
  | .call c k => life c = .neither ∧ ∀ o, Scoped life (k o)
  | .declare m d body k => (∃ x, life m = .begins x ∧ life d = .ends x) ∧ Scoped life body ∧ ∀ r, Scoped life (k r)

/-- The program uses variables only in their scope, declares no variable that is in scope already, and follows the rule `respects`.
`Γ` are the variables in scope where it begins. -/
def InScope (life : C → Life L) (uses : C → List L) (respects : C → Prop) {α : Type} : (L → Prop) → Block C O α → Prop
  | _, .ret _ => True
  | _, .throw _ => True
  | Γ, .call c k => life c = .neither ∧ (∀ z ∈ uses c, Γ z) ∧ respects c ∧ ∀ o, InScope life uses respects Γ (k o)
  | Γ, .declare m d body k => ∃ x, life m = .begins x ∧ life d = .ends x ∧ ¬ Γ x ∧ (∀ z ∈ uses m, Γ z) ∧ respects m ∧ respects d ∧
      InScope life uses respects (fun z => z = x ∨ Γ z) body ∧ ∀ r, InScope life uses respects Γ (k r)

end

section
variable {L A R B : Type} [DecidableEq R]

/-- All storage is free, every block was freed as often as allocated, every owned object was destroyed, and nothing was used before
or after its time. -/
def AllGone (s : St L A R B) : Prop :=
  (∀ z, s.hs z = none) ∧ (∀ p, s.heap p = none) ∧ (∃ m, replay s.trace = some m) ∧
  ∀ p, allocsAt p s.trace = deallocsAt p s.trace ∧ constructsAt p s.trace = destroysAt p s.trace

end
end Verif.Spec
