import Verif.Spec.Source

/-!
# C86: copies are made by the owned type's copy constructor, from a constant

When an owner is copied or moved, the owned type selects the function that it selects for a constant of its own type, or for
`std::move` of an object of it.  This holds wherever the headers write `*other`; but not for `polymorphic`, nor in `indirect`'s copy
assignment that makes a new object: there the source is an object that may be modified, although the owner it belongs to is
const.
-/

set_option autoImplicit false
set_option linter.unusedSimpArgs false

namespace Verif.Props
open Verif.Source Verif.Spec

/-- Handing an argument on changes neither its constness nor its value category, however many functions it passes. -/
theorem C86_handed_on {B : Type} (k : Nat) (x : Overload.Arg B) : handedOn k x = x := by
  induction k with
  | zero => rfl
  | succ k ih => exact ih

/-- Copy construction of `indirect`, and copy assignment to the object it has: as expected, for every owned type. -/
theorem C86_indirect (c : Class) : calls .indirect .copyConstruct c = expected .copyConstruct c ∧
    calls .indirect .copyAssignOld c = expected .copyAssignOld c := ⟨rfl, rfl⟩

/-- Moves of both. -/
theorem C86_moves (o : Owner) (c : Class) : calls o .moveConstruct c = expected .moveConstruct c ∧
    calls o .moveAssignNew c = expected .moveAssignNew c := by
  cases o <;> exact ⟨rfl, rfl⟩

/-- The places where the source is not const. -/
private theorem given_modifiable {o : Owner} {p : Place} (h : p = .copyAssignNew ∨ o = .polymorphic ∧ p = .copyConstruct) :
    given o p = some ⟨false, true⟩ := by
  rcases h with rfl | ⟨rfl, rfl⟩
  · cases o <;> rfl
  · rfl

private theorem select_const (c : Class) (h : c.hasCopy = true) : Source.select c constLvalue = some .copy := by
  cases h2 : c.accepts ⟨true, true⟩ <;>
    simp [Source.select, Source.all, Source.isBest, Source.viable, constLvalue, h, h2, Source.beats, Overload.better, List.find?]

private theorem select_modifiable (c : Class) (h : c.hasCopy = true) :
    Source.select c ⟨false, true⟩ = some (if c.hasModify then .modify else if c.accepts ⟨false, true⟩ then .template else .copy) := by
  have hm : (Source.Fn.modify != Source.Fn.template) = true := rfl
  cases h1 : c.hasModify <;> cases h2 : c.accepts ⟨false, true⟩ <;>
    simp [Source.select, Source.all, Source.isBest, Source.viable, h, h1, h2, Source.beats, Overload.better, List.find?, hm]

/-- What is expected of copies: the copy constructor, if there is one. -/
theorem C86_expected (c : Class) (h : c.hasCopy = true) (p : Place) (hp : p ≠ .moveConstruct ∧ p ≠ .moveAssignNew) :
    expected p c = some .copy := by
  cases p with
  | copyConstruct => exact select_const c h
  | copyAssignNew => exact select_const c h
  | copyAssignOld => exact select_const c h
  | moveConstruct => exact absurd rfl hp.1
  | moveAssignNew => exact absurd rfl hp.2

/-- Every copy, of every owner, calls the copy constructor (or the copy assignment), if the owned type is indifferent to whether the source may be
modified.  Missing: other types, see `C86_copies_exactly`. -/
theorem C86_copies_partial (c : Class) (h : c.hasCopy = true) (hi : Indifferent c) (o : Owner) :
    calls o .copyConstruct c = some .copy ∧ calls o .copyAssignNew c = some .copy ∧
      (o = .indirect → calls o .copyAssignOld c = some .copy) := by
  have h1 := select_const c h
  have h2 : ∀ p, (p = .copyAssignNew ∨ o = .polymorphic ∧ p = .copyConstruct) → calls o p c = some .copy := by
    intro p hp
    simp [calls, given_modifiable hp, select_modifiable c h, hi.1, hi.2]
  cases o with
  | indirect => exact ⟨h1, h2 _ (Or.inl rfl), fun _ => h1⟩
  | polymorphic => exact ⟨h2 _ (Or.inr ⟨rfl, rfl⟩), h2 _ (Or.inl rfl), nofun⟩

/-- And only then: copies of a `polymorphic`, and copy assignments of an `indirect` that make a new object, call the function that is expected exactly
if the owned type is indifferent. -/
theorem C86_copies_exactly (c : Class) (h : c.hasCopy = true) {o : Owner} {p : Place}
    (hp : p = .copyAssignNew ∨ o = .polymorphic ∧ p = .copyConstruct) : calls o p c = expected p c ↔ Indifferent c := by
  have hn : p ≠ .moveConstruct ∧ p ≠ .moveAssignNew := by
    rcases hp with rfl | ⟨_, rfl⟩ <;> exact ⟨nofun, nofun⟩
  rw [C86_expected c h p hn]
  simp only [calls, given_modifiable hp, Option.bind_some, select_modifiable c h, Indifferent, Option.some.injEq]
  cases c.hasModify <;> cases c.accepts ⟨false, true⟩ <;> simp

/-- The source of a copy is given as a constant by `indirect` where it does not make a new object in an assignment, and nowhere else. -/
theorem C86_source_constant_exactly (o : Owner) (p : Place) (hp : p ≠ .moveConstruct ∧ p ≠ .moveAssignNew) (e : Access.Expr)
    (he : given o p = some e) : e.isLvalue = true ∧ (e.isConst = true ↔ o = .indirect ∧ p ≠ .copyAssignNew) := by
  cases o <;> cases p <;> first
    | exact absurd rfl hp.1
    | exact absurd rfl hp.2
    | (cases he; done)
    | (cases he; refine ⟨rfl, ?_⟩; decide)

/-! ### What goes wrong -/

/-- A class with copy and move constructors and a template constructor without constraints. -/
private def greedy : Class := ⟨true, false, true, fun _ => true⟩

/-- A class that also has a constructor `T(T&)`, which may modify its source. -/
private def taking : Class := ⟨true, true, true, fun _ => false⟩

/-- An ordinary class. -/
private def ordinary : Class := ⟨true, false, true, fun _ => false⟩

/-- A copy of a const `polymorphic` is not made by the copy constructor, and a copy assignment of an `indirect` constructs the new object in
another way than a copy construction does. -/
theorem C86_violation : ∃ c : Class, c.hasCopy = true ∧ calls .polymorphic .copyConstruct c = some .template ∧
    calls .indirect .copyAssignNew c = some .template ∧ calls .indirect .copyConstruct c = some .copy :=
  ⟨greedy, by decide⟩

/-- The object of a const owner is given to a constructor that may modify it. -/
theorem C86_violation_const : ∃ c : Class, c.hasCopy = true ∧ calls .polymorphic .copyConstruct c = some .modify ∧
    calls .polymorphic .copyAssignNew c = some .modify ∧ calls .indirect .copyAssignNew c = some .modify ∧
    calls .indirect .copyConstruct c = some .copy :=
  ⟨taking, by decide⟩

/-! ### The hypotheses are met -/

example : ordinary.hasCopy = true ∧ Indifferent ordinary ∧ calls .polymorphic .copyConstruct ordinary = some .copy ∧
    calls .polymorphic .moveConstruct ordinary = some .move ∧ expected .moveAssignNew greedy = some .move :=
  ⟨rfl, ⟨rfl, rfl⟩, by decide, by decide, by decide⟩

end Verif.Props
