import Verif.Spec.Mixed

/-!
# Lemmas on mixed comparisons
-/

set_option autoImplicit false
set_option linter.unusedSimpArgs false

namespace Verif.Mixed
open Verif.Spec

section
variable {U V : Type}

/-- Which operator is selected when no class is derived from an `indirect`. -/
theorem select_own_own (s : Std) (t t' : Ty U) : select s (.own .self t) (.own .self t') = some .both := by
  cases s <;> rfl

theorem select_own_plain (s : Std) (k : Kind) (t : Ty U) (u : U) : select s (.own k t) (.plain u) = some .left := by
  cases s <;> cases k <;> rfl

theorem select_plain_own (s : Std) (k : Kind) (u : U) (t : Ty U) : select s (.plain u) (.own k t) = some .right := by
  cases s <;> cases k <;> rfl

/-- Two classes derived from `indirect`s: ambiguous. -/
theorem select_derived_derived (s : Std) (d d' : Nat) (t t' : Ty U) : select s (.own (.derived d) t) (.own (.derived d') t') = none := by
  cases s <;> rfl

/-- A derived class and an `indirect`: the derived class is taken for a plain value. -/
theorem select_derived_own (s : Std) (d : Nat) (t t' : Ty U) : select s (.own (.derived d) t) (.own .self t') = some .right := by
  cases s <;> rfl

theorem select_own_derived (s : Std) (d : Nat) (t t' : Ty U) : select s (.own .self t) (.own (.derived d) t') = some .left := by
  cases s <;> rfl

variable (L : Leaf U V)

/-! ### Unfolding, C++14 -/

theorem ev14_plain (op : Mixed.Op) (a b : V) : ev14 L op (.plain a) (.plain b) = some (L.op op a b) := by
  rw [ev14]

theorem ev14_both (op : Mixed.Op) (x y : Val U V) {t t' : Ty U} (hx : x.ty L = .own .self t) (hy : y.ty L = .own .self t') :
    ev14 L op x y = if x.gone || y.gone then some (bothGone x.gone y.gone op) else ev14 L op x.inner y.inner := by
  rw [ev14]
  · rw [hx, hy, select_own_own]
    cases x <;> cases y <;> simp_all [Val.gone, Val.owns, Val.ty, Val.inner]
  · intro a b h _
    subst h
    exact nomatch hx

theorem ev14_left (op : Mixed.Op) (x : Val U V) (b : V) {k : Kind} {t : Ty U} (hx : x.ty L = .own k t) :
    ev14 L op x (.plain b) = if x.gone then some (leftGone op) else ev14 L op x.inner (.plain b) := by
  rw [ev14]
  · rw [hx, show (Val.plain b : Val U V).ty L = .plain (L.type b) from rfl, select_own_plain]
    cases x <;> simp_all [Val.gone, Val.owns, Val.ty, Val.inner]
  · intro a b h _
    subst h
    exact nomatch hx

theorem ev14_right (op : Mixed.Op) (a : V) (y : Val U V) {k : Kind} {t : Ty U} (hy : y.ty L = .own k t) :
    ev14 L op (.plain a) y = if y.gone then some (rightGone op) else ev14 L op (.plain a) y.inner := by
  rw [ev14]
  · rw [hy, show (Val.plain a : Val U V).ty L = .plain (L.type a) from rfl, select_plain_own]
    cases y <;> simp_all [Val.gone, Val.owns, Val.ty, Val.inner]
  · intro a b _ h
    subst h
    exact nomatch hy

/-! ### Unfolding, C++20 -/

theorem eq20_plain (a b : V) : eq20 L (.plain a) (.plain b) = some (L.eq a b) := by
  rw [eq20]

theorem eq20_both (x y : Val U V) {t t' : Ty U} (hx : x.ty L = .own .self t) (hy : y.ty L = .own .self t') :
    eq20 L x y = if x.gone then some y.gone else if y.gone then some false else eq20 L x.inner y.inner := by
  rw [eq20]
  · rw [hx, hy, select_own_own]
    cases x <;> cases y <;> simp_all [Val.gone, Val.owns, Val.ty, Val.inner]
  · intro a b h _
    subst h
    exact nomatch hx

/-- A plain value on the right, or an object of a derived class. -/
theorem eq20_left (x y : Val U V) {k : Kind} {t : Ty U} (hx : x.ty L = .own k t) (hs : select .cxx20 (x.ty L) (y.ty L) = some .left) :
    eq20 L x y = if x.gone then some false else eq20 L x.inner y := by
  rw [eq20]
  · rw [hs]
    cases x <;> simp_all [Val.gone, Val.owns, Val.ty, Val.inner]
  · intro a b h _
    subst h
    exact nomatch hx

theorem eq20_right (x y : Val U V) {k : Kind} {t : Ty U} (hy : y.ty L = .own k t) (hs : select .cxx20 (x.ty L) (y.ty L) = some .right) :
    eq20 L x y = if y.gone then some false else eq20 L y.inner x := by
  rw [eq20]
  · rw [hs]
    cases y <;> simp_all [Val.gone, Val.owns, Val.ty, Val.inner]
  · intro a b _ h
    subst h
    exact nomatch hy

variable [DecidableEq U]

theorem cmp20_plain (a b : V) : cmp20 L (.plain a) (.plain b) = some (L.cmp a b) := by
  rw [cmp20]

/-- `synth_three_way` of two operands. -/
def synth20 (x y : Val U V) : Option Cmp :=
  synth (three L (x.ty L) (y.ty L)) (cmp20 L x y) (less L x y (cmp20 L x y)) (less L y x (cmp20 L y x))

theorem cmp20_both (x y : Val U V) {t t' : Ty U} (hx : x.ty L = .own .self t) (hy : y.ty L = .own .self t') :
    cmp20 L x y = if x.gone || y.gone then some (cmpBool (!x.gone) (!y.gone)) else synth20 L x.inner y.inner := by
  rw [cmp20]
  · rw [hx, hy, select_own_own]
    cases x <;> cases y <;> simp_all [Val.gone, Val.owns, Val.ty, Val.inner, synth20]
  · intro a b h _
    subst h
    exact nomatch hx

theorem cmp20_left (x : Val U V) (b : V) {k : Kind} {t : Ty U} (hx : x.ty L = .own k t) :
    cmp20 L x (.plain b) = if x.gone then some .less else synth20 L x.inner (.plain b) := by
  rw [cmp20]
  · rw [hx, show (Val.plain b : Val U V).ty L = .plain (L.type b) from rfl, select_own_plain]
    cases x <;> simp_all [Val.gone, Val.owns, Val.ty, Val.inner, synth20]
  · intro a b h _
    subst h
    exact nomatch hx

theorem cmp20_right (a : V) (y : Val U V) {k : Kind} {t : Ty U} (hy : y.ty L = .own k t) :
    cmp20 L (.plain a) y = if y.gone then some .greater else (synth20 L y.inner (.plain a)).map reversed := by
  rw [cmp20]
  · rw [hy, show (Val.plain a : Val U V).ty L = .plain (L.type a) from rfl, select_plain_own]
    cases y <;> simp_all [Val.gone, Val.owns, Val.ty, Val.inner, synth20, reversed]
  · intro a b _ h
    subst h
    exact nomatch hy

end
end Verif.Mixed
