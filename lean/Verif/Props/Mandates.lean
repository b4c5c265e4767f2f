import Verif.Spec.Mandates

/-!
# C99: the members can be used for the owned types the paper says
-/

set_option autoImplicit false
set_option linter.unusedSectionVars false
set_option linter.unusedSimpArgs false

namespace Verif.Props
open Verif.Constraints Verif.Spec Overload

section
variable {B : Type} (F : Facts B)

/-- For a class that can be default-constructed, copied and assigned in the usual ways every member of every header can be
used, as the paper says, and copy assignment between objects with equal allocators assigns. -/
theorem C99_ordinary (h : Paper.Semiregular F) (eq : Bool) (m : Member) :
    Paper.mandates F eq m ∧ Paper.mandatesP F m ∧ uses20 F eq m = true ∧ uses14 F m = true ∧ usesP20 F m = true ∧
      usesP14 F m = true ∧ inPlace20 F = true ∧ inPlace14 F = true := by
  obtain ⟨⟨hd, hr⟩, h0, hi, ha, hp⟩ := h
  have c1 := hr true true
  have c2 := hr true false
  have c3 := hr false true
  have c4 := hr false false
  have a1 := ha true true
  have a4 := ha false false
  refine ⟨?_, ?_, ?_, ?_, ?_, ?_, ?_, ?_⟩
  · cases m <;> simp [Paper.mandates, Paper.Copyable, plain, h0, c1, c4, a1]
  · cases m <;> simp [Paper.mandatesP, Paper.Copyable, h0, c1]
  · cases m <;>
      simp [uses20, ownedDefaultInitializable, constructibleFrom, copyConstructible, moveConstructible, plain, ref, constRef,
        const, h0, hi, hd, c1, c2, c3, c4, a1]
  · cases m <;> simp [uses14, isCopyConstructible, plain, ref, constRef, h0, c1, c3, c4, a1]
  · cases m <;>
      simp [usesP20, blockNeeds, ownedDefaultInitializable, constructibleFrom, copyConstructible, moveConstructible, plain, ref,
        constRef, const, h0, hi, hd, hp, c1, c2, c3, c4]
  · cases m <;> simp [usesP14, blockNeeds, plain, ref, h0, hp, c3, c4]
  · simp [inPlace20, assignableFrom, plain, a4]
  · simp [inPlace14, constRef, a1]

/-- indirect.h, what is asked for beyond the paper: default construction. -/
theorem C99_default_indirect_partial (eq : Bool) :
    (uses20 F eq .make = true ↔ Paper.mandates F eq .make ∧ F.nothrowDtor F.owned = true ∧ F.ownedInit = true) ∧
      (uses20 F eq .makeA = true ↔ Paper.mandates F eq .makeA) := by
  constructor
  · simp [uses20, Paper.mandates, ownedDefaultInitializable, constructibleFrom]
    grind
  · simp [uses20, Paper.mandates]

/-- indirect.h: copies and copy assignment need a `T` that is copied as classes normally are. -/
theorem C99_copy_indirect_partial (eq : Bool) (m : Member) (hm : m = .copy ∨ m = .copyA ∨ m = .copyAssign) :
    uses20 F eq m = true ↔ Paper.mandates F eq m ∧ Paper.Regular F F.owned := by
  have reg : copyConstructible F F.owned = true ↔ Paper.Regular F F.owned := by
    simp [copyConstructible, moveConstructible, constructibleFrom, Paper.Regular, plain, ref, constRef, const]
    grind
  have cop : Paper.Regular F F.owned → F.constructible F.owned [⟨F.owned, true, false, true⟩] = true := fun h =>
    (h.2 true true).1
  have lv : Paper.Regular F F.owned → F.constructible F.owned [⟨F.owned, false, false, true⟩] = true := fun h =>
    (h.2 false true).1
  rcases hm with rfl | rfl | rfl <;> simp [uses20, Paper.mandates, Paper.Copyable, reg, ref, constRef] <;> grind

/-- indirect.h: moves and move assignment need a `T` that is moved as classes normally are, always.  The paper asks for
nothing for moves, and for a copy constructor for move assignment. -/
theorem C99_move_indirect_partial (eq : Bool) (m : Member) (hm : m = .move ∨ m = .moveA ∨ m = .moveAssign) :
    uses20 F eq m = true ↔ Paper.Movable F F.owned := by
  rcases hm with rfl | rfl | rfl <;>
    simp [uses20, Paper.Movable, moveConstructible, constructibleFrom] <;> grind

/-- indirect_cxx14.h: default construction and copies are as the paper says; moves need a `T` that can be constructed from
an rvalue, whatever the allocator; copy assignment needs in addition that a `T` can be constructed from `T&`. -/
theorem C99_indirect_cxx14_partial (eq : Bool) :
    (∀ m, m = .make ∨ m = .makeA ∨ m = .copy ∨ m = .copyA → (uses14 F m = true ↔ Paper.mandates F eq m)) ∧
      (∀ m, m = .move ∨ m = .moveA ∨ m = .moveAssign →
        (uses14 F m = true ↔ F.constructible F.owned [plain F.owned] = true)) ∧
      (uses14 F .moveA = true ↔ Paper.mandates F false .moveA) ∧
      (Paper.Copyable F F.owned → (uses14 F .copyAssign = true ↔
        Paper.mandates F eq .copyAssign ∧ F.constructible F.owned [⟨F.owned, false, false, true⟩] = true)) := by
  refine ⟨?_, ?_, ?_, ?_⟩
  · intro m hm
    rcases hm with rfl | rfl | rfl | rfl <;>
      simp [uses14, Paper.mandates, Paper.Copyable, isCopyConstructible, constRef]
  · intro m hm
    rcases hm with rfl | rfl | rfl <;> simp [uses14]
  · simp [uses14, Paper.mandates]
  · intro h
    simp [uses14, Paper.mandates, h, constRef, ref]

/-- polymorphic.h: default construction needs a `T` that is copied as classes normally are; nothing else needs anything of
`T`. -/
theorem C99_polymorphic_partial (hp : F.pointerConverts F.owned = true) (m : Member) :
    usesP20 F m = true ↔
      Paper.mandatesP F m ∧ (m = .make ∨ m = .makeA → Paper.Regular F F.owned ∧ F.ownedInit = true) := by
  have reg : copyConstructible F F.owned = true ↔ Paper.Regular F F.owned := by
    simp [copyConstructible, moveConstructible, constructibleFrom, Paper.Regular, plain, ref, constRef, const]
    grind
  have c1 : Paper.Regular F F.owned → F.constructible F.owned [⟨F.owned, true, false, true⟩] = true := fun h =>
    (h.2 true true).1
  have c2 : Paper.Regular F F.owned → F.constructible F.owned [⟨F.owned, false, false, true⟩] = true := fun h =>
    (h.2 false true).1
  have c3 : Paper.Regular F F.owned → F.constructible F.owned [⟨F.owned, false, false, false⟩] = true := fun h =>
    (h.2 false false).1
  have d : Paper.Regular F F.owned → F.nothrowDtor F.owned = true := fun h => h.1
  cases m <;>
    simp [usesP20, Paper.mandatesP, Paper.Copyable, ownedDefaultInitializable, constructibleFrom, blockNeeds, reg, ref, plain,
      hp] <;> grind

/-- polymorphic_cxx14.h: default construction needs a `T` that can be constructed from its lvalues and rvalues. -/
theorem C99_polymorphic_cxx14_partial (hp : F.pointerConverts F.owned = true) (hc : Paper.Copyable F F.owned) (m : Member) :
    usesP14 F m = true ↔
      Paper.mandatesP F m ∧ (m = .make ∨ m = .makeA →
        F.constructible F.owned [⟨F.owned, false, false, true⟩] = true ∧ F.constructible F.owned [plain F.owned] = true) := by
  cases m <;> simp [usesP14, Paper.mandatesP, blockNeeds, ref, hp, hc] <;> grind

variable [DecidableEq B]

/-- Whatever the constructor templates of polymorphic.h accept can be copied and moved by the control block: no error inside
it. -/
theorem C99_block (c : PCall B) (h : polymorphic20 F c = true) : blockNeeds F (Paper.target c) = true := by
  have reg : ∀ b, copyConstructible F b = true → F.constructible b [ref b] = true ∧ F.constructible b [plain b] = true := by
    intro b
    simp [copyConstructible, moveConstructible, constructibleFrom]
    grind
  cases c <;> simp [polymorphic20, blockNeeds, Paper.target, derivedFrom, removeCvref] at h ⊢ <;> grind

/-- The same for polymorphic_cxx14.h, for classes that are copied as classes normally are and derived in public. -/
theorem C99_block_cxx14_partial (c : PCall B) (hr : Paper.Regular F (Paper.target c))
    (hp : F.baseOf (Paper.target c) = true → F.pointerConverts (Paper.target c) = true)
    (h : polymorphic14 F c = true) : blockNeeds F (Paper.target c) = true := by
  have c2 := (hr.2 false true).1
  have c3 := (hr.2 false false).1
  cases c <;>
    simp [polymorphic14, blockNeeds, Paper.target, removeCvref, ref, plain] at h hp c2 c3 ⊢ <;> grind

/-- Copy assignment can be used only if a `T` can be assigned from a constant `T`: the run-time test whether it can decides
nothing in indirect_cxx14.h. -/
theorem C99_in_place_cxx14 (h : uses14 F .copyAssign = true) : inPlace14 F = true := by
  simp [uses14, inPlace14] at h ⊢
  exact h.1

/-- In indirect.h it asks for assignment from an rvalue, and is true if that has the usual form. -/
theorem C99_in_place_partial (eq : Bool) (h : uses20 F eq .copyAssign = true) :
    F.assignable ⟨F.owned, true, false, true⟩ = true ∧
      (inPlace20 F = true ↔ F.assignable (plain F.owned) = true ∧ F.assignGivesRef (plain F.owned) = true ∧
        F.commonRef (plain F.owned) = true) := by
  constructor
  · simp [uses20, constRef] at h
    exact h.1.2
  · simp [inPlace20, assignableFrom]
    grind

end

/-! Where code and paper differ. -/

/-- A `T` that can be copied but whose move constructor is deleted, with allocators that are always equal.  By the paper an
`indirect<T>` can be moved, which moves a pointer; with both headers it cannot. -/
theorem C99_move_violated :
    ∃ F : Facts Nat, Paper.mandates F true .move ∧ Paper.mandates F true .moveA ∧ Paper.mandates F true .moveAssign ∧
      uses20 F true .move = false ∧ uses20 F true .moveA = false ∧ uses20 F true .moveAssign = false ∧
      uses14 F .move = false ∧ uses14 F .moveA = false ∧ uses14 F .moveAssign = false ∧ uses14 F .copy = true :=
  ⟨{ Paper.world with constructible := fun b us =>
      match us with
      | [u] => u.ty == b && u.isRef
      | _ => false }, by
    refine ⟨trivial, Or.inl rfl, ?_, ?_, ?_, ?_, ?_, ?_, ?_, ?_⟩
    · exact rfl
    all_goals decide⟩

/-- A `T` that can only be moved: by the paper an `indirect<T>` cannot be move-assigned, with both headers it can. -/
theorem C99_move_only_violated :
    ∃ F : Facts Nat, Paper.Movable F F.owned ∧ ¬ Paper.mandates F true .moveAssign ∧ uses20 F true .moveAssign = true ∧
      uses14 F .moveAssign = true :=
  ⟨{ Paper.world with constructible := fun b us =>
      match us with
      | [u] => u.ty == b && !u.isRef && !u.isConst
      | _ => false }, by
    refine ⟨⟨?_, ?_, ?_⟩, ?_, ?_, ?_⟩
    · decide
    · decide
    · decide
    · intro h
      exact absurd (show (_ : Bool) = true from h) (by decide)
    · decide
    · decide⟩

/-- A `T` with a copy assignment operator and a deleted move assignment operator: by the paper copy assignment between
objects with equal allocators assigns to the owned object; indirect.h can be used and replaces the object. -/
theorem C99_in_place_violated :
    ∃ F : Facts Nat, Paper.Regular F F.owned ∧ Paper.mandates F true .copyAssign ∧ uses20 F true .copyAssign = true ∧
      inPlace20 F = false ∧ uses14 F .copyAssign = true ∧ inPlace14 F = true :=
  ⟨{ Paper.world with assignable := fun u => !u.isVolatile && u.ty == 1 && u.isRef }, by
    refine ⟨⟨?_, ?_⟩, ⟨?_, ?_⟩, ?_, ?_, ?_, ?_⟩
    · decide
    · decide
    · decide
    · exact rfl
    all_goals decide⟩

/-- A class that can be copied but whose move constructor is deleted: by the paper a `polymorphic` can be made from it;
polymorphic.h rejects it, polymorphic_cxx14.h accepts it and then cannot compile the control block. -/
theorem C99_block_violated :
    ∃ (F : Facts Nat) (u : UType Nat), Paper.polymorphic F (.value u) ∧ polymorphic20 F (.value u) = false ∧
      polymorphic14 F (.value u) = true ∧ blockNeeds F u.ty = false :=
  ⟨{ Paper.world with constructible := fun b us =>
      match us with
      | [u] => u.ty == b && u.isRef
      | _ => false }, ref 3, by
    refine ⟨⟨?_, ⟨?_, ?_⟩, ?_, ?_, ?_, ?_⟩, ?_, ?_, ?_⟩ <;> first | decide | exact rfl⟩

/-- A `T` that cannot be assigned, only copied: no header offers copy assignment of `indirect`, although each has a branch
for it, because the other branch is compiled as well. -/
theorem C99_not_assignable :
    ∃ F : Facts Nat, Paper.Regular F F.owned ∧ inPlace20 F = false ∧ inPlace14 F = false ∧
      uses20 F true .copyAssign = false ∧ uses14 F .copyAssign = false ∧ uses20 F true .copy = true :=
  ⟨{ Paper.world with assignable := fun _ => false }, by
    refine ⟨⟨?_, ?_⟩, ?_, ?_, ?_, ?_, ?_⟩ <;> decide⟩

/-! The hypotheses are met. -/

example : Paper.Semiregular Paper.world := by
  refine ⟨⟨?_, ?_⟩, ?_, ?_, ?_, ?_⟩ <;> decide

example : polymorphic20 Paper.world (.value (ref 3)) = true ∧ polymorphic14 Paper.world (.inPlace (plain 3) []) = true ∧
    Paper.Regular Paper.world 3 ∧ Paper.world.pointerConverts 3 = true := by
  refine ⟨?_, ?_, ⟨?_, ?_⟩, ?_⟩ <;> decide

example : uses14 Paper.world .copyAssign = true ∧ uses20 Paper.world false .copyAssign = true ∧
    Paper.world.pointerConverts Paper.world.owned = true := by
  refine ⟨?_, ?_, ?_⟩ <;> decide

end Verif.Props
