import Verif.Spec.NodeRun
import Verif.Spec.Compare

/-!
# Comparison of trees

Equality of trees is `Tree.Like` (same shape, equal payloads); here are the lexicographic comparison and the hash of
trees.  Blocks and allocators play no role.
-/

set_option autoImplicit false

namespace Verif

/-- The first of `f 0, …, f (k-1)` that is not "equivalent", if any. -/
def firstDifference (f : Nat → Cmp) : Nat → Cmp
  | 0 => .equivalent
  | k + 1 => if firstDifference f k = .equivalent then f k else firstDifference f k

namespace Tree
variable {A V H : Type}

/-- Absent values come first, then valueless ones; nodes are compared by their payloads and, if these are equivalent,
by the first of the members that differs. -/
def cmp (f : V → V → Cmp) (K : Nat) : Tree A V → Tree A V → Cmp
  | absent, t => match t with
    | absent => .equivalent
    | _ => .less
  | hollow _, t => match t with
    | absent => .greater
    | hollow _ => .equivalent
    | node _ _ _ _ => .less
  | node _ _ v ks, t => match t with
    | absent => .greater
    | hollow _ => .greater
    | node _ _ w js => if f v w = .equivalent then firstDifference (fun k => (ks k).cmp f K (js k)) K else f v w

/-- `mix (… (mix h (f 0)) …) (f (k-1))` -/
def mixed (mix : H → H → H) (h : H) (f : Nat → H) : Nat → H
  | 0 => h
  | k + 1 => mix (mixed mix h f k) (f k)

/-- The hash of a tree. -/
def hash (nothing npos : H) (mix : H → H → H) (f : V → H) (K : Nat) : Tree A V → H
  | absent => nothing
  | hollow _ => npos
  | node _ _ v ks => mixed mix (f v) (fun k => (ks k).hash nothing npos mix f K) K

end Tree

/-- An operation that returns or throws and leaves everything as it is. -/
def OnlyLooks {σ B : Type} (m : M σ B) : Prop := ∀ s, (∃ b, m s = .ok b s) ∨ ∃ e, m s = .threw e s

end Verif
