import Verif.Deduction

/-!
# C71: deduced template arguments

`declares bases x = some (T, A)` means that `indirect y(x);` declares an `indirect<T, A>`; `declaresA bases a x` is the same for
`indirect y(std::allocator_arg, a, x);`.  Types, allocator templates and class hierarchies are arbitrary.
-/

set_option autoImplicit false
set_option linter.unusedSimpArgs false
set_option linter.unusedSectionVars false

namespace Verif.Props
open Verif.Deduction
open Verif.Overload (Arg)

section
variable {B : Type} [DecidableEq B] {bases : Bases B}

/-- The type is not an `indirect` and not derived from one. -/
def NoIndirect (bases : Bases B) (t : Ty B) : Prop := asIndirect bases t = none

/-- The value type of the allocator is the owned type, which the class requires; the owned type is no array. -/
def WellFormed (t a : Ty B) : Prop := valueType a = some t ∧ ∀ u n, t ≠ .array u n

private theorem guide_best {xs : List (Arg (Ty B))} {fit : Cand → Option (Fit B)} {a : Fit B} (h : fit .guide = some a)
    (hb : ∀ g b, g ≠ .guide → fit g = some b → beats xs .guide a.inits g b.inits = true) :
    deduce xs fit = some a.args := by
  unfold deduce
  rw [show all = Cand.guide :: all.tail from rfl, List.findSome?_cons]
  simp only [h]
  rw [if_pos]
  rw [List.all_eq_true]
  intro g _
  by_cases hg : g = .guide
  · simp [hg]
  · cases hf : fit g with
    | none => simp
    | some b => simp [hb g b hg hf]

/-- From a value of another type: `T` is the type of the value (for an array, a pointer to its elements), with the default
allocator. -/
theorem C71_from_value (x : Arg (Ty B)) (h : NoIndirect bases x.ty) :
    declares bases x = some (decay x, stdAlloc (decay x)) := by
  simp only [NoIndirect] at h
  simp [declares, deduce, all, fit1, h, List.findSome?]

/-- From an `indirect`: the same specialization, whether it is copied or moved; never an `indirect` of an `indirect`. -/
theorem C71_from_indirect (x : Arg (Ty B)) (t a : Ty B) (h : x.ty = .indirect t a) (hv : x.isVolatile = false) :
    declares bases x = some (t, a) := by
  obtain ⟨ty, c, v, l⟩ := x
  cases h; cases hv
  cases c <;> cases l <;> rfl

/-- From an object of a class derived from an `indirect`: an `indirect` of that class, not a copy of its base class. -/
theorem C71_from_derived (x : Arg (Ty B)) (b : B) (p : Ty B × Ty B) (h : x.ty = .base b) (hb : bases b = some p) :
    declares bases x = some (.base b, stdAlloc (.base b)) := by
  have hx : decay x = .base b := by simp [decay, h]
  refine guide_best (a := ⟨[byValue], (.base b, stdAlloc (.base b))⟩) (by simp [fit1, hx]) ?_
  intro g q hg hq
  cases g with
  | guide => exact absurd rfl hg
  | other => cases hq
  | _ =>
    simp only [fit1, asIndirect, h, hb, Option.map_some] at hq
    split at hq
    · cases hq
    · cases hq; simp [beats, betterArgs, betterAll, betterSome, byValue, Overload.better]

/-- With an allocator, from a value of another type: `T` is the type of the value, and the allocator is rebound to it,
whatever type it allocated for. -/
theorem C71_with_allocator_from_value (a x : Arg (Ty B)) (f : Option B) (u : Ty B) (ha : a.ty = .alloc f u)
    (h : NoIndirect bases x.ty) : declaresA bases a x = some (decay x, .alloc f (decay x)) := by
  have hd : decay a = .alloc f u := by simp [decay, ha]
  simp only [NoIndirect] at h
  simp [declaresA, deduce, all, fit3, h, hd, rebind, List.findSome?]

/-- With an allocator of the same type, from an `indirect`: the same specialization. -/
theorem C71_with_allocator_from_indirect (a x : Arg (Ty B)) (t : Ty B) (h : x.ty = .indirect t a.ty)
    (hv : x.isVolatile = false) (ha : a.isVolatile = false) : declaresA bases a x = some (t, a.ty) := by
  obtain ⟨ty, c, v, l⟩ := x
  obtain ⟨aty, ac, av, al⟩ := a
  cases h; cases hv; cases ha
  cases hr : rebind (decay ⟨aty, ac, false, al⟩) (.indirect t aty) <;> cases c <;> cases l <;>
    simp [declaresA, deduce, all, fit3, asIndirect, hr, List.findSome?, beats, betterArgs, betterAll, betterSome, byValue, byConstRef,
      Overload.better, moreSpecialized, show ∀ c l, decay (⟨.indirect t aty, c, false, l⟩ : Arg (Ty B)) = .indirect t aty from
        fun _ _ => rfl]

/-- With an allocator of another type (also if it differs only in what it allocates), an `indirect` is taken for a value: what
is declared is an `indirect` of an `indirect`. -/
theorem C71_with_other_allocator (a x : Arg (Ty B)) (f : Option B) (u t a' : Ty B) (ha : a.ty = .alloc f u)
    (h : x.ty = .indirect t a') (hne : a' ≠ a.ty) :
    declaresA bases a x = some (.indirect t a', .alloc f (.indirect t a')) := by
  obtain ⟨ty, c, v, l⟩ := x
  obtain ⟨aty, ac, av, al⟩ := a
  cases h; cases ha
  simp only at hne
  cases c <;> cases l <;> cases v <;> cases av <;>
    simp [declaresA, deduce, all, fit3, asIndirect, rebind, decay, List.findSome?, hne]

/-- With any allocator, from an object of a class derived from an `indirect`: an `indirect` of that class. -/
theorem C71_with_allocator_from_derived (a x : Arg (Ty B)) (f : Option B) (u : Ty B) (b : B) (p : Ty B × Ty B)
    (ha : a.ty = .alloc f u) (h : x.ty = .base b) (hb : bases b = some p) :
    declaresA bases a x = some (.base b, .alloc f (.base b)) := by
  have hx : decay x = .base b := by simp [decay, h]
  have hd : decay a = .alloc f u := by simp [decay, ha]
  refine guide_best (a := ⟨[byValue, byValue], (.base b, .alloc f (.base b))⟩) (by simp [fit3, hx, hd, rebind]) ?_
  intro g q hg hq
  cases g with
  | guide => exact absurd rfl hg
  | copy =>
    simp only [fit3, asIndirect, h, hb, Option.map_some] at hq
    split at hq
    · cases hq
    · cases hq; simp [beats, betterArgs, betterAll, betterSome, byValue, byConstRef, Overload.better]
  | move =>
    simp only [fit3, asIndirect, h, hb, Option.map_some] at hq
    split at hq
    · cases hq
    · cases hq; simp [beats, betterArgs, betterAll, betterSome, byValue, byConstRef, Overload.better]
  | copyDeduction => cases hq
  | other => cases hq

private theorem decay_noArray (x : Arg (Ty B)) (u : Ty B) (n : Nat) : decay x ≠ .array u n := by
  unfold decay
  split
  · exact fun h => by cases h
  · rename_i h; exact fun e => h u n e

/-- What is deduced meets the requirements of the class template on its arguments (if an `indirect` that is the argument
itself does).  The allocator may be given or not. -/
theorem C71_well_formed (x : Arg (Ty B)) (hv : x.isVolatile = false)
    (hx : ∀ t a, x.ty = .indirect t a → WellFormed t a) :
    (∃ t a, declares bases x = some (t, a) ∧ WellFormed t a) ∧
    ∀ al f u, al.ty = .alloc f u → al.isVolatile = false → ∃ t a, declaresA bases al x = some (t, a) ∧ WellFormed t a := by
  constructor
  · cases h : asIndirect bases x.ty with
    | none => exact ⟨_, _, C71_from_value x h, rfl, fun u n => decay_noArray x u n⟩
    | some p =>
      cases hty : x.ty with
      | indirect t a => exact ⟨t, a, C71_from_indirect x t a hty hv, hx t a hty⟩
      | base b =>
        rw [hty] at h
        simp only [asIndirect, Option.map_eq_some_iff] at h
        obtain ⟨q, hq, _⟩ := h
        exact ⟨_, _, C71_from_derived x b q hty hq, rfl, fun u n e => by cases e⟩
      | _ => rw [hty] at h; cases h
  · intro al f u hal halv
    cases h : asIndirect bases x.ty with
    | none => exact ⟨_, _, C71_with_allocator_from_value al x f u hal h, rfl, fun u n => decay_noArray x u n⟩
    | some p =>
      cases hty : x.ty with
      | indirect t a =>
        by_cases ha : a = al.ty
        · exact ⟨t, al.ty, C71_with_allocator_from_indirect al x t (by rw [hty, ha]) hv halv, ha ▸ hx t a hty⟩
        · exact ⟨_, _, C71_with_other_allocator al x f u t a hal hty ha, rfl, fun u n e => by cases e⟩
      | base b =>
        rw [hty] at h
        simp only [asIndirect, Option.map_eq_some_iff] at h
        obtain ⟨q, hq, _⟩ := h
        exact ⟨_, _, C71_with_allocator_from_derived al x f u b q hal hty hq, rfl, fun u n e => by cases e⟩
      | _ => rw [hty] at h; cases h

end

/-! ### The hypotheses are met -/
section

/-- Type 7 is derived from `indirect<0>`. -/
private def bs : Bases Nat := fun b => if b = 7 then some (.base 0, stdAlloc (.base 0)) else none

/-- `indirect<0>` with the default allocator. -/
private def i0 : Ty Nat := .indirect (.base 0) (stdAlloc (.base 0))

example : declares bs ⟨.base 3, true, false, true⟩ = some (.base 3, stdAlloc (.base 3)) := by decide
example : declares bs ⟨i0, false, false, true⟩ = some (.base 0, stdAlloc (.base 0)) := by decide
example : declares bs ⟨i0, true, false, false⟩ = some (.base 0, stdAlloc (.base 0)) := by decide
example : declares bs ⟨.indirect i0 (stdAlloc i0), true, false, false⟩ = some (i0, stdAlloc i0) := by decide
example : declares bs ⟨.base 7, false, false, false⟩ = some (.base 7, stdAlloc (.base 7)) := by decide
/-- `indirect y("ab")`. -/
example : declares bs ⟨.array (.base 1) 3, true, false, true⟩ =
    some (.ptr (.base 1) true false, stdAlloc (.ptr (.base 1) true false)) := by decide
/-- `indirect y(std::allocator_arg, std::pmr::polymorphic_allocator<0>(), x)`, template 5. -/
example : declaresA bs ⟨.alloc (some 5) (.base 0), false, false, false⟩ ⟨.base 3, false, false, true⟩ =
    some (.base 3, .alloc (some 5) (.base 3)) := by decide
example : declaresA bs ⟨stdAlloc (.base 0), false, false, false⟩ ⟨i0, false, false, true⟩ =
    some (.base 0, stdAlloc (.base 0)) := by decide
example : declaresA bs ⟨.alloc (some 5) (.base 0), false, false, false⟩ ⟨i0, false, false, true⟩ =
    some (i0, .alloc (some 5) i0) := by decide
/-- Without an allocator nothing is deduced. -/
example : declaresA bs ⟨.base 1, false, false, false⟩ ⟨.base 3, false, false, true⟩ = none := by decide

end
end Verif.Props
