import Verif.Mixed
import Verif.Spec.Compare

/-!
# What comparisons of nested and mixed operands mean
-/

set_option autoImplicit false

namespace Verif.Spec
open Verif.Mixed

section
variable {U V : Type}

/-- What one finds when one follows an operand through all its owners: a value, or a valueless owner at some depth. -/
inductive Ending (V : Type) where
  | valueless (depth : Nat)
  | value (v : V)

/-- One owner more. -/
def Ending.under : Ending V → Ending V
  | .valueless d => .valueless (d + 1)
  | .value v => .value v

/-- The end of an operand. -/
def ending : Val U V → Ending V
  | .plain v => .value v
  | .valueless _ _ => .valueless 0
  | .engaged _ v => (ending v).under

/-- The operators on natural numbers. -/
def natOp : Mixed.Op → Nat → Nat → Bool
  | .eq, a, b => a == b
  | .ne, a, b => a != b
  | .lt, a, b => decide (a < b)
  | .gt, a, b => decide (b < a)
  | .le, a, b => decide (a ≤ b)
  | .ge, a, b => decide (b ≤ a)

/-- Values compare as themselves; valueless operands are less than values, and the less the earlier one meets them. -/
def endOp (L : Leaf U V) (op : Mixed.Op) : Ending V → Ending V → Bool
  | .value a, .value b => L.op op a b
  | .valueless i, .valueless j => natOp op i j
  | .valueless _, .value _ => natOp op 0 1
  | .value _, .valueless _ => natOp op 1 0

/-- The same as an order. -/
def endCmp (f : V → V → Cmp) : Ending V → Ending V → Cmp
  | .value a, .value b => f a b
  | .valueless i, .valueless j => if i < j then .less else if j < i then .greater else .equivalent
  | .valueless _, .value _ => .less
  | .value _, .valueless _ => .greater

/-- No class derived from an `indirect` occurs. -/
def Plain : Ty U → Prop
  | .plain _ => True
  | .own k t => k = .self ∧ Plain t

/-- The plain type at the end. -/
def endType : Ty U → U
  | .plain u => u
  | .own _ t => endType t

/-- The operators of plain types belong to a total order `f`. -/
structure OrderedBy (L : Leaf U V) (f : V → V → Cmp) : Prop where
  total : ∀ a b, f a b ≠ .unordered
  swap : ∀ a b, f b a = reverse (f a b)
  lt : ∀ a b, L.lt a b = isLt (f a b)
  cmp : ∀ a b, L.three (L.type a) (L.type b) = true → L.cmp a b = f a b

end
end Verif.Spec
