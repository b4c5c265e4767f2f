import Verif.IndirectOps

/-!
# Comparison of nested, mixed and derived operands

The comparison operators of `indirect` are templates: `indirect<T, A>` can be compared with other specializations, with plain values, with `indirect`s of
`indirect`s and with objects of classes derived from `indirect`.  This module models which operator an expression
selects, by overload resolution with the rewritten candidates of C++20 ([over.match.oper]/3, [over.match.best]), and what happens then: the
operators compare the owned objects, which may again be operands of this kind.

Candidates are the friends of the specialization that an operand has or is derived from; other specializations found by argument-dependent
lookup are not viable, since the constructors that convert are explicit.

Simplifications: an object is derived from at most one specialization, and classes derived from it declare no operators; allocators are not
part of types; categories of orderings are not modelled.
-/

set_option autoImplicit false

namespace Verif
namespace Mixed

/-- What the operand is: the specialization itself, or a class derived from it. -/
inductive Kind where
  | self
  | derived (d : Nat)
  deriving DecidableEq, Repr

/-- Types of operands. -/
inductive Ty (U : Type) where
  | plain (u : U)
  /-- an `indirect<t>`, or a class derived from it -/
  | own (k : Kind) (t : Ty U)
  deriving DecidableEq

/-- Plain types and their operators. -/
structure Leaf (U V : Type) where
  type : V → U
  /-- `a == b` -/
  eq : V → V → Bool
  /-- `std::three_way_comparable_with` -/
  three : U → U → Bool
  /-- `a <=> b`, where there is one -/
  cmp : V → V → Cmp
  /-- `a != b`, `a < b`, `a > b`, `a <= b`, `a >= b` -/
  ne : V → V → Bool
  lt : V → V → Bool
  gt : V → V → Bool
  le : V → V → Bool
  ge : V → V → Bool

/-- Operands. -/
inductive Val (U V : Type) where
  | plain (v : V)
  /-- a valueless object of type `own k t` -/
  | valueless (k : Kind) (t : Ty U)
  | engaged (k : Kind) (v : Val U V)

section
variable {U V : Type}

/-- The type of an operand. -/
def Val.ty (L : Leaf U V) : Val U V → Ty U
  | .plain v => .plain (L.type v)
  | .valueless k t => .own k t
  | .engaged k v => .own k (v.ty L)

/-- A bound for the recursion. -/
def Val.size : Val U V → Nat
  | .plain _ => 0
  | .valueless _ _ => 1
  | .engaged _ v => v.size + 1

/-! ### Overload resolution -/

/-- The language and header. -/
inductive Std where
  | cxx14
  | cxx20
  deriving DecidableEq, Repr

/-- The candidates, for one operator. -/
inductive Cand where
  /-- `operator@(const indirect<T, A>&, const indirect<U, AA>&)`: indirect.h:377-387, 400-408, indirect_cxx14.h:375-429 -/
  | both
  /-- the same with the operands exchanged (rewritten) -/
  | bothReversed
  /-- `operator@(const indirect<T, A>&, const U&)` where `U` is not an `indirect`: indirect.h:389-398, 410-426, indirect_cxx14.h:431-439 and so on -/
  | left
  /-- `operator@(const U&, const indirect<T, A>&)`: rewritten in C++20, declared in indirect_cxx14.h:441-449 and so on -/
  | right
  deriving DecidableEq, Repr

/-- How well an argument fits. -/
inductive Rank where
  | exact
  /-- derived-to-base conversion -/
  | toBase
  deriving DecidableEq, Repr

/-- Binding of an object of that kind to a reference to the specialization. -/
def Kind.rank : Kind → Rank
  | .self => .exact
  | .derived _ => .toBase

/-- Viable candidates, with the ranks of the arguments in the order of the expression.  `is_indirect_v` is true of the specializations only, not of
derived classes (indirect.h:76-80, indirect_cxx14.h:99-103); deduction of `indirect<U, AA>` accepts derived classes ([temp.deduct.call]/4). -/
def viable (s : Std) : Ty U → Ty U → Cand → Option (Rank × Rank)
  | .own k _, .own k' _, .both => some (k.rank, k'.rank)
  | .own k _, .own k' _, .bothReversed => if s = .cxx20 then some (k.rank, k'.rank) else none
  | .own k _, .own (.derived _) _, .left => some (k.rank, .exact)
  | .own k _, .plain _, .left => some (k.rank, .exact)
  | .own (.derived _) _, .own k' _, .right => some (.exact, k'.rank)
  | .plain _, .own k' _, .right => some (.exact, k'.rank)
  | _, _, _ => none

/-- Candidates that are not declared but rewritten. -/
def rewritten (s : Std) : Cand → Bool
  | .both => false
  | .left => false
  | .bothReversed => true
  | .right => s == .cxx20

/-- One rank is better than another. -/
def Rank.better (a b : Rank) : Bool := a == .exact && b == .toBase

/-- One candidate is a better match ([over.match.best]/2): no argument fits worse and one fits better, or all fit the same and it is not rewritten
while the other is.  (No two candidates that fit the same differ in how specialized they are: `both` and `left` do not fit the same, since `left` is not for
`indirect`s; of `both` and its reversal neither is more specialized.) -/
def beats (s : Std) (c : Cand) (a : Rank × Rank) (c' : Cand) (b : Rank × Rank) : Bool :=
  !b.1.better a.1 && !b.2.better a.2 &&
    (a.1.better b.1 || a.2.better b.2 || (!rewritten s c && rewritten s c'))

/-- All candidates. -/
def all : List Cand := [.both, .bothReversed, .left, .right]

/-- Viable, and better than every other that is. -/
def isBest (s : Std) (x y : Ty U) (c : Cand) : Bool :=
  match viable s x y c with
  | none => false
  | some a => all.all fun c' =>
      c' == c || match viable s x y c' with
        | none => true
        | some b => beats s c a c' b

/-- The operator that is selected, if there is one and it is not ambiguous. -/
def select (s : Std) (x y : Ty U) : Option Cand := all.find? (isBest s x y)

/-! ### The operators -/

/-- Valueless? -/
def Val.gone : Val U V → Bool
  | .valueless _ _ => true
  | _ => false

/-- `*x`; the bodies use it only of objects that are not valueless. -/
def Val.inner : Val U V → Val U V
  | .engaged _ v => v
  | v => v

/-- Is it an `indirect`, or derived from one? -/
def Val.owns : Val U V → Bool
  | .plain _ => false
  | _ => true

/-- Operands get smaller. -/
theorem Val.inner_lt {x : Val U V} (h : x.gone = false) (ho : x.owns = true) : x.inner.size < x.size := by
  cases x with
  | plain v => exact nomatch ho
  | valueless _ _ => exact nomatch h
  | engaged _ v => simp [Val.inner, Val.size]

/-- `x == y` in C++20.  Bodies: indirect.h:379-387 and 392-398.  A reversed candidate is called with the operands exchanged. -/
def eq20 (L : Leaf U V) (x y : Val U V) : Option Bool :=
  match x, y with
  | .plain a, .plain b => some (L.eq a b)
  | x, y =>
    match select .cxx20 (x.ty L) (y.ty L) with
    | some .both =>
      if hx : x.gone then some y.gone
      else if hy : y.gone then some false
      else if h : x.owns ∧ y.owns then eq20 L x.inner y.inner
      else none
    | some .bothReversed =>
      if hy : y.gone then some x.gone
      else if hx : x.gone then some false
      else if h : x.owns ∧ y.owns then eq20 L y.inner x.inner
      else none
    | some .left =>
      if hx : x.gone then some false
      else if h : x.owns then eq20 L x.inner y
      else none
    | some .right =>
      if hy : y.gone then some false
      else if h : y.owns then eq20 L y.inner x
      else none
    | none => none
termination_by x.size + y.size
decreasing_by
  all_goals simp only [Bool.not_eq_true] at *
  · have := Val.inner_lt hx h.1; have := Val.inner_lt hy h.2; omega
  · have := Val.inner_lt hx h.1; have := Val.inner_lt hy h.2; omega
  · have := Val.inner_lt hx h; omega
  · have := Val.inner_lt hy h; omega

/-- `std::three_way_comparable_with<T, U>` for the owned types: an `indirect` and another type have no common reference, since the constructors that
convert are explicit; two objects of a class derived from `indirect` cannot be compared. -/
def three [DecidableEq U] (L : Leaf U V) : Ty U → Ty U → Bool
  | .plain a, .plain b => L.three a b
  | .own .self t, .own .self t' => t == t'
  | _, _ => false

/-- `synth_three_way`, given the results of `t <=> u`, `t < u` and `u < t`: indirect.h:51-65. -/
def synth (three : Bool) (cmp : Option Cmp) (lt gt : Option Bool) : Option Cmp :=
  if three then cmp
  else match lt with
    | none => none
    | some true => some .less
    | some false =>
      match gt with
      | none => none
      | some true => some .greater
      | some false => some .equivalent

/-- The comparison of two bools, `!lhs.valueless_after_move() <=> !rhs.valueless_after_move()`. -/
def cmpBool : Bool → Bool → Cmp
  | false, true => .less
  | true, false => .greater
  | _, _ => .equivalent

/-- `0 <=> r`: the result of a reversed candidate ([over.match.oper]/9). -/
def reversed : Cmp → Cmp
  | .less => .greater
  | .greater => .less
  | c => c

/-- `t < u`: of plain values `operator<`, otherwise rewritten to `(t <=> u) < 0`. -/
def less (L : Leaf U V) (x y : Val U V) (cmp : Option Cmp) : Option Bool :=
  match x, y with
  | .plain a, .plain b => some (L.lt a b)
  | _, _ => cmp.map fun c => c == .less

/-- `x <=> y` in C++20.  Bodies: indirect.h:402-408 and 413-426. -/
def cmp20 [DecidableEq U] (L : Leaf U V) (x y : Val U V) : Option Cmp :=
  match x, y with
  | .plain a, .plain b => some (L.cmp a b)
  | x, y =>
    match select .cxx20 (x.ty L) (y.ty L) with
    | some .both =>
      if hx : x.gone ∨ y.gone then some (cmpBool (!x.gone) (!y.gone))
      else if h : x.owns ∧ y.owns then
        synth (three L (x.inner.ty L) (y.inner.ty L)) (cmp20 L x.inner y.inner) (less L x.inner y.inner (cmp20 L x.inner y.inner))
          (less L y.inner x.inner (cmp20 L y.inner x.inner))
      else none
    | some .bothReversed =>
      if hx : x.gone ∨ y.gone then some (reversed (cmpBool (!y.gone) (!x.gone)))
      else if h : x.owns ∧ y.owns then
        (synth (three L (y.inner.ty L) (x.inner.ty L)) (cmp20 L y.inner x.inner) (less L y.inner x.inner (cmp20 L y.inner x.inner))
          (less L x.inner y.inner (cmp20 L x.inner y.inner))).map reversed
      else none
    | some .left =>
      if hx : x.gone then some .less
      else if h : x.owns then
        synth (three L (x.inner.ty L) (y.ty L)) (cmp20 L x.inner y) (less L x.inner y (cmp20 L x.inner y))
          (less L y x.inner (cmp20 L y x.inner))
      else none
    | some .right =>
      if hy : y.gone then some (reversed .less)
      else if h : y.owns then
        (synth (three L (y.inner.ty L) (x.ty L)) (cmp20 L y.inner x) (less L y.inner x (cmp20 L y.inner x))
          (less L x y.inner (cmp20 L x y.inner))).map reversed
      else none
    | none => none
termination_by x.size + y.size
decreasing_by
  all_goals simp only [Bool.not_eq_true, not_or] at *
  · have := Val.inner_lt hx.1 h.1; have := Val.inner_lt hx.2 h.2; omega
  · have := Val.inner_lt hx.1 h.1; have := Val.inner_lt hx.2 h.2; omega
  · have := Val.inner_lt hx.1 h.1; have := Val.inner_lt hx.2 h.2; omega
  · have := Val.inner_lt hx.1 h.1; have := Val.inner_lt hx.2 h.2; omega
  · have := Val.inner_lt hx h; omega
  · have := Val.inner_lt hx h; omega
  · have := Val.inner_lt hy h; omega
  · have := Val.inner_lt hy h; omega

/-- The six operators. -/
inductive Op where
  | eq | ne | lt | gt | le | ge
  deriving DecidableEq, Repr

/-- The operators in C++20: `!=` is rewritten to `==`, the relational ones to `<=>` ([over.match.oper]/3.4). -/
def ev20 [DecidableEq U] (L : Leaf U V) (op : Op) (x y : Val U V) : Option Bool :=
  match op with
  | .eq => eq20 L x y
  | .ne => (eq20 L x y).map not
  | .lt => (cmp20 L x y).map fun c => c == .less
  | .gt => (cmp20 L x y).map fun c => c == .greater
  | .le => (cmp20 L x y).map fun c => c == .less || c == .equivalent
  | .ge => (cmp20 L x y).map fun c => c == .greater || c == .equivalent

/-- The operators of plain types. -/
def Leaf.op (L : Leaf U V) : Op → V → V → Bool
  | .eq => L.eq
  | .ne => L.ne
  | .lt => L.lt
  | .gt => L.gt
  | .le => L.le
  | .ge => L.ge

/-- The operators between two `indirect`s: the result if one of them is valueless.  indirect_cxx14.h:375-429. -/
def bothGone (l r : Bool) : Op → Bool
  | .eq => l && r
  | .ne => !(l && r)
  | .lt => if l then !r else false
  | .gt => if r then !l else false
  | .le => if l then true else false
  | .ge => if r then true else false

/-- The operators with a plain value on the right, if the `indirect` is valueless: indirect_cxx14.h:435, 455, 474, 492, 511, 531. -/
def leftGone : Op → Bool
  | .eq => false
  | .ne => true
  | .lt => true
  | .gt => false
  | .le => true
  | .ge => false

/-- The operators with a plain value on the left: indirect_cxx14.h:445, 465, 483, 501, 521, 541. -/
def rightGone : Op → Bool
  | .eq => false
  | .ne => true
  | .lt => false
  | .gt => true
  | .le => false
  | .ge => true

/-- `x @ y` with indirect_cxx14.h, in C++14. -/
def ev14 (L : Leaf U V) (op : Op) (x y : Val U V) : Option Bool :=
  match x, y with
  | .plain a, .plain b => some (L.op op a b)
  | x, y =>
    match select .cxx14 (x.ty L) (y.ty L) with
    | some .both =>
      if hx : x.gone ∨ y.gone then some (bothGone x.gone y.gone op)
      else if h : x.owns ∧ y.owns then ev14 L op x.inner y.inner
      else none
    | some .left =>
      if hx : x.gone then some (leftGone op)
      else if h : x.owns then ev14 L op x.inner y
      else none
    | some .right =>
      if hy : y.gone then some (rightGone op)
      else if h : y.owns then ev14 L op x y.inner
      else none
    | some .bothReversed => none
    | none => none
termination_by x.size + y.size
decreasing_by
  all_goals simp only [Bool.not_eq_true, not_or] at *
  · have := Val.inner_lt hx.1 h.1; have := Val.inner_lt hx.2 h.2; omega
  · have := Val.inner_lt hx h; omega
  · have := Val.inner_lt hy h; omega

/-! ### Does a comparison compile? -/

/-- A bound for the recursion. -/
def Ty.size : Ty U → Nat
  | .plain _ => 0
  | .own _ t => t.size + 1

/-- Does `x == y` compile for operands of these types?  An operator must be selected and its definition, which compares the owned objects, must
compile, whether or not objects are valueless.  `ok u v`: can plain values be compared? -/
def compiles (s : Std) (ok : U → U → Bool) : Ty U → Ty U → Bool
  | .plain u, .plain v => ok u v
  | .plain u, .own k t =>
    match select s (.plain u) (.own k t) with
    | some .right => if s = .cxx20 then compiles s ok t (.plain u) else compiles s ok (.plain u) t
    | _ => false
  | .own k t, .plain v =>
    match select s (.own k t) (.plain v) with
    | some .left => compiles s ok t (.plain v)
    | _ => false
  | .own k t, .own k' t' =>
    match select s (.own k t) (.own k' t') with
    | some .both => compiles s ok t t'
    | some .bothReversed => compiles s ok t' t
    | some .left => compiles s ok t (.own k' t')
    | some .right => if s = .cxx20 then compiles s ok t' (.own k t) else compiles s ok (.own k t) t'
    | none => false
termination_by x y => x.size + y.size
decreasing_by all_goals simp only [Ty.size]; omega

end
end Mixed
end Verif
