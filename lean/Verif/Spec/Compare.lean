import Verif.Compare

/-!
# Specification of comparisons

Comparisons of optional values, with "no value" equal to itself and less than every value; laws of comparison
functions.  Nothing here refers to objects, states or the operators of the model.
-/

set_option autoImplicit false

namespace Verif.Spec
open Verif

section
variable {V W : Type}

/-- An operation on two optional values: `f` if there are both, else a result that depends only on which of them there
are. -/
def onValues {σ B : Type} (r : Bool → Bool → B) (f : V → W → M σ B) : Option V → Option W → M σ B
  | some a, some b => f a b
  | a, b => pure (r a.isSome b.isSome)

/-- Equality of optional values. -/
def optEq (f : V → W → Bool) : Option V → Option W → Bool
  | none, none => true
  | some a, some b => f a b
  | _, _ => false

/-- Three-way comparison of optional values: no value comes first. -/
def optCmp (f : V → W → Cmp) : Option V → Option W → Cmp
  | none, none => .equivalent
  | none, some _ => .less
  | some _, none => .greater
  | some a, some b => f a b

/-- `<` of optional values. -/
def optLt (f : V → W → Bool) : Option V → Option W → Bool
  | none, some _ => true
  | some a, some b => f a b
  | _, _ => false

/-- `<=` of optional values. -/
def optLe (f : V → W → Bool) : Option V → Option W → Bool
  | none, _ => true
  | some a, some b => f a b
  | some _, none => false

/-- The comparisons of two types, as functions: `a <=> b` if there is such an operator, `a < b` and `b < a`. -/
structure Order (V W : Type) where
  threeWay : Option (V → W → Cmp)
  lt : V → W → Bool
  gt : V → W → Bool

/-- The comparisons as computations that do not throw and do not change anything. -/
def Order.ops {σ : Type} (o : Order V W) : Ordered σ V W := ⟨o.threeWay.map pureOp, pureOp o.lt, pureOp o.gt⟩

/-- Three-way comparison: `<=>` if there is such an operator, else by `<`. -/
def Order.three (o : Order V W) (a : V) (b : W) : Cmp :=
  match o.threeWay with
  | some f => f a b
  | none => if o.lt a b then .less else if o.gt a b then .greater else .equivalent

/-- The comparison with the operands exchanged. -/
def reverse : Cmp → Cmp
  | .less => .greater
  | .greater => .less
  | c => c

/- How the language defines the relational operators by `<=>`. -/
/-- `a < b`, that is, `(a <=> b) < 0` -/
def isLt (c : Cmp) : Bool := c == .less
/-- `a > b` -/
def isGt (c : Cmp) : Bool := c == .greater
/-- `a <= b` -/
def isLe (c : Cmp) : Bool := c == .less || c == .equivalent
/-- `a >= b` -/
def isGe (c : Cmp) : Bool := c == .greater || c == .equivalent

/-- A comparison function is an order (some values may be unordered). -/
structure Lawful (f : V → V → Cmp) : Prop where
  refl : ∀ a, f a a = .equivalent
  reverse : ∀ a b, f b a = reverse (f a b)
  trans : ∀ a b c, f a b = .less → f b c = .less → f a c = .less
  congr : ∀ a b c, f a b = .equivalent → f a c = f b c

/-- All values are ordered. -/
def Total (f : V → W → Cmp) : Prop := ∀ a b, f a b ≠ .unordered

/-- An equivalence relation. -/
structure Equivalence (f : V → V → Bool) : Prop where
  refl : ∀ a, f a a = true
  symm : ∀ a b, f a b = true → f b a = true
  trans : ∀ a b c, f a b = true → f b c = true → f a c = true

/-- A strict weak order. -/
structure StrictWeak (lt : V → V → Bool) : Prop where
  irrefl : ∀ a, lt a a = false
  trans : ∀ a b c, lt a b = true → lt b c = true → lt a c = true
  incomp : ∀ a b c, lt a b = false → lt b a = false → lt b c = false → lt c b = false →
    lt a c = false ∧ lt c a = false

/-- The six comparison operators of two types. -/
structure Six (V W : Type) where
  eq : V → W → Bool
  ne : V → W → Bool
  lt : V → W → Bool
  gt : V → W → Bool
  le : V → W → Bool
  ge : V → W → Bool

/-- The negations are what they should be. -/
structure Six.Negations (f : Six V W) : Prop where
  ne : ∀ a b, f.ne a b = !f.eq a b
  le : ∀ a b, f.le a b = !f.gt a b
  ge : ∀ a b, f.ge a b = !f.lt a b

/-- `g` is `f` with the operands exchanged. -/
structure Six.Mirrors (f : Six V W) (g : Six W V) : Prop where
  eq : ∀ a b, f.eq a b = g.eq b a
  ne : ∀ a b, f.ne a b = g.ne b a
  lt : ∀ a b, f.lt a b = g.gt b a
  gt : ∀ a b, f.gt a b = g.lt b a
  le : ∀ a b, f.le a b = g.ge b a
  ge : ∀ a b, f.ge a b = g.le b a

/-- The operators say the same as a three-way comparison and an equality. -/
structure Six.AgreesWith (f : Six V W) (e : V → W → Bool) (cmp : V → W → Cmp) : Prop where
  eq : ∀ a b, f.eq a b = e a b
  ne : ∀ a b, f.ne a b = !e a b
  lt : ∀ a b, f.lt a b = isLt (cmp a b)
  gt : ∀ a b, f.gt a b = isGt (cmp a b)
  le : ∀ a b, f.le a b = isLe (cmp a b)
  ge : ∀ a b, f.ge a b = isGe (cmp a b)

end
end Verif.Spec
