import Verif.Spec.Constraints

/-!
# C98: the templates accept the arguments the paper says
-/

set_option autoImplicit false
set_option linter.unusedSectionVars false
set_option linter.unusedSimpArgs false

namespace Verif.Props
open Verif.Constraints Verif.Spec Overload

section
variable {B : Type} [DecidableEq B] (F : Facts B)

/-- indirect.h accepts what the paper does, if in addition `T`'s destructor does not throw, `A` is default initializable
where it is value-initialized, and for assignment `T`'s assignment operator returns a `T&` and there is a common
reference. -/
theorem C98_indirect_partial (c : ICall B) :
    indirect20 F c = true ↔
      Paper.indirect F c ∧ F.nothrowDtor F.owned = true ∧ (Paper.defaultsAlloc c = true → F.allocInit = true) ∧
        (∀ u, c = .assign u → F.commonRef u = true ∧ F.assignGivesRef u = true) := by
  cases c <;>
    simp [indirect20, Paper.indirect, Paper.defaultsAlloc, constructibleFrom, defaultInitializable, assignableFrom,
      removeCvref, plain, ref] <;> grind

/-- indirect_cxx14.h, all but the two templates that take a single value: exactly the paper's constraints for a `T` that does
not tell lvalue from rvalue initializer lists. -/
theorem C98_indirect_cxx14_partial (hl : Paper.ListsAlike F F.owned) (c : ICall B)
    (hv : ∀ u, c ≠ .value u ∧ c ≠ .valueA u) (hs : ∀ u, c = .assign u → u.ty ≠ F.self) :
    indirect14 F c = true ↔ Paper.indirect F c := by
  cases c with
  | value u => exact absurd rfl (hv u).1
  | valueA u => exact absurd rfl (hv u).2
  | inPlace us => simp [indirect14, Paper.indirect]
  | inPlaceA us => simp [indirect14, Paper.indirect]
  | list i us => simp [indirect14, Paper.indirect, hl i us]; grind
  | listA i us => simp [indirect14, Paper.indirect, hl i us]
  | assign u =>
    have h := hs u rfl
    obtain ⟨b, k, v, r⟩ := u
    cases r <;> simp [indirect14, Paper.indirect, removeCv, plain] at h ⊢ <;> grind

/-- The two that take a single value accept a `T` only, whatever else `T` is constructible from. -/
theorem C98_value_indirect_cxx14_partial (hs : F.owned ≠ F.self) (u : UType B)
    (hu : F.constructible F.owned [u] = true) :
    (indirect14 F (.valueA u) = true ↔ Paper.indirect F (.valueA u) ∧ u.ty = F.owned) ∧
      (F.allocDefault = true →
        (indirect14 F (.value u) = true ↔ Paper.indirect F (.value u) ∧ u.ty = F.owned)) := by
  obtain ⟨b, k, v, r⟩ := u
  constructor
  · simp [indirect14, Paper.indirect, removeCvref, plain, hu]; grind
  · intro ha
    simp [indirect14, Paper.indirect, removeCvref, plain, hu, ha]; grind

/-- polymorphic.h accepts what the paper does, if in addition the class is copied as classes normally are and `A` is default
initializable where it is value-initialized: for arguments that are not volatile and not tags, and classes that do
not tell lvalue from rvalue initializer lists. -/
theorem C98_polymorphic_partial (c : PCall B) (hl : Paper.ListsAlike F (Paper.target c))
    (hu : ∀ u, c = .value u ∨ c = .valueA u → u.isVolatile = false ∧ F.isTag u.ty = false) :
    polymorphic20 F c = true ↔
      Paper.polymorphic F c ∧ Paper.Regular F (Paper.target c) ∧
        (Paper.defaultsAllocP c = true → F.allocInit = true) := by
  have reg : ∀ b, copyConstructible F b = true ↔ Paper.Regular F b := by
    intro b
    simp [copyConstructible, moveConstructible, constructibleFrom, Paper.Regular, plain, ref, constRef, const]
    grind
  have cop : ∀ b, Paper.Regular F b → Paper.Copyable F b := fun b h => (h.2 true true).1
  have arg : ∀ u : UType B, u.isVolatile = false → Paper.Regular F u.ty → F.constructible u.ty [u] = true := by
    intro u hv h
    obtain ⟨b, k, v, r⟩ := u
    simp only at hv
    subst hv
    exact (h.2 k r).1
  have dtor : ∀ b, Paper.Regular F b → F.nothrowDtor b = true := fun b h => h.1
  cases c with
  | value u =>
    have h := hu u (Or.inl rfl)
    simp [polymorphic20, Paper.polymorphic, Paper.target, Paper.defaultsAllocP, reg, removeCvref, plain, derivedFrom,
      Paper.Derived, defaultInitializable]
    grind
  | valueA u =>
    have h := hu u (Or.inr rfl)
    simp [polymorphic20, Paper.polymorphic, Paper.target, Paper.defaultsAllocP, reg, removeCvref, plain, derivedFrom,
      Paper.Derived]
    grind
  | inPlace u us =>
    simp [polymorphic20, Paper.polymorphic, Paper.target, Paper.defaultsAllocP, reg, removeCvref, plain, derivedFrom,
      Paper.Derived, defaultInitializable, constructibleFrom]
    grind
  | inPlaceA u us =>
    simp [polymorphic20, Paper.polymorphic, Paper.target, Paper.defaultsAllocP, reg, removeCvref, plain, derivedFrom,
      Paper.Derived, constructibleFrom]
    grind
  | list u i us =>
    have hl := hl i us
    simp [polymorphic20, Paper.polymorphic, Paper.target, Paper.defaultsAllocP, reg, removeCvref, plain, derivedFrom,
      Paper.Derived, defaultInitializable, constructibleFrom] at hl ⊢
    grind
  | listA u i us =>
    have hl := hl i us
    simp [polymorphic20, Paper.polymorphic, Paper.target, Paper.defaultsAllocP, reg, removeCvref, plain, derivedFrom,
      Paper.Derived, constructibleFrom] at hl ⊢
    grind

/-- polymorphic_cxx14.h: exactly the paper's constraints for public and unambiguous bases, arguments that construct the class
and are no tags, an allocator with a default constructor for `U&&` alone, types `U` that are not `const`, and classes that
do not tell lvalue from rvalue initializer lists. -/
theorem C98_polymorphic_cxx14_partial (c : PCall B) (hl : Paper.ListsAlike F (Paper.target c))
    (hp : F.baseOf (Paper.target c) = true → F.pointerConverts (Paper.target c) = true)
    (ha : ∀ u, c = .value u → F.allocDefault = true)
    (hu : ∀ u, c = .value u ∨ c = .valueA u → F.constructible u.ty [u] = true ∧ F.isTag u.ty = false)
    (hq : ∀ u us i, c = .inPlace u us ∨ c = .inPlaceA u us ∨ c = .list u i us ∨ c = .listA u i us →
      u.isConst = false) :
    polymorphic14 F c = true ↔ Paper.polymorphic F c := by
  cases c with
  | value u =>
    have ha := ha u rfl
    have h := hu u (Or.inl rfl)
    simp [polymorphic14, Paper.polymorphic, Paper.target, removeCvref, plain, Paper.Derived, isCopyConstructible,
      Paper.Copyable, constRef] at hp ⊢
    grind
  | valueA u =>
    have h := hu u (Or.inr rfl)
    simp [polymorphic14, Paper.polymorphic, Paper.target, removeCvref, plain, Paper.Derived, isCopyConstructible,
      Paper.Copyable, constRef] at hp ⊢
    grind
  | inPlace u us =>
    have hk := hq u us u.ty (by simp)
    obtain ⟨b, k, v, r⟩ := u
    simp [polymorphic14, Paper.polymorphic, Paper.target, removeCvref, plain, Paper.Derived, isCopyConstructible,
      Paper.Copyable, constRef] at hp hk ⊢
    grind
  | inPlaceA u us =>
    have hk := hq u us u.ty (by simp)
    obtain ⟨b, k, v, r⟩ := u
    simp [polymorphic14, Paper.polymorphic, Paper.target, removeCvref, plain, Paper.Derived, isCopyConstructible,
      Paper.Copyable, constRef] at hp hk ⊢
    grind
  | list u i us =>
    have hk := hq u us i (by simp)
    have hl := hl i us
    obtain ⟨b, k, v, r⟩ := u
    simp [polymorphic14, Paper.polymorphic, Paper.target, removeCvref, plain, Paper.Derived, isCopyConstructible,
      Paper.Copyable, constRef] at hp hk hl ⊢
    grind
  | listA u i us =>
    have hk := hq u us i (by simp)
    have hl := hl i us
    obtain ⟨b, k, v, r⟩ := u
    simp [polymorphic14, Paper.polymorphic, Paper.target, removeCvref, plain, Paper.Derived, isCopyConstructible,
      Paper.Copyable, constRef] at hp hk hl ⊢
    grind

/-- Whatever indirect.h accepts, the owned object can be constructed from: no error inside the definition. -/
theorem C98_body_indirect (c : ICall B) (h : indirect20 F c = true) :
    F.constructible (builds F c).1 (builds F c).2 = true := by
  cases c <;> simp [indirect20, builds, constructibleFrom] at h ⊢ <;> grind

/-- The same for polymorphic.h, if the argument is not volatile and the class does not tell lvalue from rvalue initializer
lists. -/
theorem C98_body_polymorphic_partial (c : PCall B) (hl : Paper.ListsAlike F (Paper.target c))
    (hu : ∀ u, c = .value u ∨ c = .valueA u → u.isVolatile = false) (h : polymorphic20 F c = true) :
    F.constructible (buildsP F c).1 (buildsP F c).2 = true := by
  have arg : ∀ u : UType B, u.isVolatile = false → copyConstructible F u.ty = true → F.constructible u.ty [u] = true := by
    intro u hv h
    obtain ⟨b, k, v, r⟩ := u
    simp only at hv
    subst hv
    cases k <;> cases r <;>
      simp [copyConstructible, moveConstructible, constructibleFrom, plain, ref, constRef, const] at h <;> simp [h]
  cases c with
  | value u =>
    have hv := hu u (Or.inl rfl)
    simp [polymorphic20, removeCvref] at h
    exact arg u hv h.1.1.2
  | valueA u =>
    have hv := hu u (Or.inr rfl)
    simp [polymorphic20, removeCvref] at h
    exact arg u hv h.1.2
  | inPlace u us => simp [polymorphic20, constructibleFrom, buildsP] at h ⊢; grind
  | inPlaceA u us => simp [polymorphic20, constructibleFrom, buildsP] at h ⊢; grind
  | list u i us =>
    have hl := hl i us
    simp [polymorphic20, constructibleFrom, buildsP, Paper.target, ref] at h hl ⊢; grind
  | listA u i us =>
    have hl := hl i us
    simp [polymorphic20, constructibleFrom, buildsP, Paper.target, ref] at h hl ⊢; grind

end

/-! Where code and paper differ. -/

/-- A `T` with a destructor that may throw: the paper lets an `indirect` be made from a `T`, indirect.h does not, although
the object could be constructed. -/
theorem C98_throwing_destructor_violated :
    ∃ (F : Facts Nat) (u : UType Nat), Paper.indirect F (.value u) ∧ Paper.indirect F (.assign u) ∧
      indirect20 F (.value u) = false ∧ indirect20 F (.assign u) = false ∧ indirect14 F (.value u) = true :=
  ⟨{ Paper.world with nothrowDtor := fun _ => false }, plain 1, by
    refine ⟨⟨?_, ?_, ?_, ?_⟩, ⟨?_, ?_, ?_⟩, ?_, ?_, ?_⟩ <;> decide⟩

/-- A `T` whose assignment operator returns `void`: the paper lets a value be assigned, indirect.h does not. -/
theorem C98_void_assignment_violated :
    ∃ (F : Facts Nat) (u : UType Nat), Paper.Regular F F.owned ∧ Paper.indirect F (.assign u) ∧
      indirect20 F (.assign u) = false ∧ indirect14 F (.assign u) = true :=
  ⟨{ Paper.world with assignGivesRef := fun _ => false }, plain 1, by
    refine ⟨⟨?_, ?_⟩, ⟨?_, ?_, ?_⟩, ?_, ?_⟩ <;> decide⟩

/-- A class with an explicit copy constructor: the paper lets a `polymorphic` own one, polymorphic.h does not. -/
theorem C98_explicit_copy_violated :
    ∃ (F : Facts Nat) (u : UType Nat), F.nothrowDtor u.ty = true ∧ Paper.polymorphic F (.value u) ∧
      Paper.polymorphic F (.inPlace u []) ∧ polymorphic20 F (.value u) = false ∧
      polymorphic20 F (.inPlace u []) = false ∧ polymorphic14 F (.value u) = true :=
  ⟨{ Paper.world with convertible := fun _ _ => false }, plain 3, by
    refine ⟨?_, ⟨?_, ⟨?_, ?_⟩, ?_, ?_, ?_, ?_⟩, ⟨?_, ⟨?_, ?_⟩, ?_, ?_, ?_⟩, ?_, ?_, ?_⟩ <;> first | decide | exact rfl⟩

/-- A volatile argument of an ordinary class: the paper rejects it, polymorphic.h and polymorphic_cxx14.h accept it and then
cannot construct the object. -/
theorem C98_volatile_violated :
    ∃ (F : Facts Nat) (u : UType Nat), Paper.Regular F u.ty ∧ ¬ Paper.polymorphic F (.value u) ∧
      polymorphic20 F (.value u) = true ∧ polymorphic14 F (.value u) = true ∧
      F.constructible (buildsP F (.value u)).1 (buildsP F (.value u)).2 = false :=
  ⟨Paper.world, ⟨3, false, true, true⟩, by
    refine ⟨⟨?_, ?_⟩, ?_, ?_, ?_, ?_⟩
    · decide
    · decide
    · intro h
      exact absurd h.2.2.1 (by decide)
    · decide
    · decide
    · decide⟩

/-- A class that takes initializer lists as rvalues only: the paper rejects it, the other three headers accept it and then
pass an lvalue, which cannot construct the object; indirect.h rejects it. -/
theorem C98_list_violated :
    ∃ (F : Facts Nat) (i : Nat), ¬ Paper.polymorphic F (.list (plain 3) i []) ∧ ¬ Paper.indirect F (.list i []) ∧
      polymorphic20 F (.list (plain 3) i []) = true ∧ polymorphic14 F (.list (plain 3) i []) = true ∧
      indirect14 F (.list i []) = true ∧ indirect20 F (.list i []) = false ∧
      F.constructible (builds F (.list i [])).1 (builds F (.list i [])).2 = false ∧
      F.constructible (buildsP F (.list (plain 3) i [])).1 (buildsP F (.list (plain 3) i [])).2 = false :=
  ⟨{ Paper.world with constructible := fun b us =>
      match us with
      | [] => true
      | [u] => !u.isVolatile && (u.ty == b || (decide (10 ≤ u.ty) && !u.isRef))
      | _ => false }, 7, by
    refine ⟨?_, ?_, ?_, ?_, ?_, ?_, ?_, ?_⟩
    · intro h
      exact absurd h.2.2.1 (by decide)
    · intro h
      exact absurd h.1 (by decide)
    all_goals decide⟩

/-- A `T` constructible and assignable from string literals, as `std::string`: the paper and indirect.h let
`indirect<T>("...")` be written, indirect_cxx14.h does not, although it lets a literal be assigned. -/
theorem C98_conversion_violated :
    ∃ (F : Facts Nat) (u : UType Nat), Paper.indirect F (.value u) ∧ Paper.indirect F (.valueA u) ∧
      indirect20 F (.value u) = true ∧ indirect20 F (.valueA u) = true ∧ indirect14 F (.value u) = false ∧
      indirect14 F (.valueA u) = false ∧ indirect14 F (.assign u) = true :=
  ⟨Paper.world, ⟨5, true, false, true⟩, by
    refine ⟨⟨?_, ?_, ?_, ?_⟩, ⟨?_, ?_, ?_⟩, ?_, ?_, ?_, ?_, ?_⟩ <;> decide⟩

/-- A class derived in private: the paper and polymorphic.h reject it, polymorphic_cxx14.h accepts it. -/
theorem C98_private_base_violated :
    ∃ (F : Facts Nat) (u : UType Nat), ¬ Paper.polymorphic F (.value u) ∧ polymorphic20 F (.value u) = false ∧
      polymorphic14 F (.value u) = true :=
  ⟨Paper.world, plain 4, by
    refine ⟨?_, ?_, ?_⟩
    · intro h
      exact absurd h.2.1.2 (by decide)
    · decide
    · decide⟩

/-- `in_place_type<const U>`: the paper and polymorphic.h reject it, polymorphic_cxx14.h accepts it. -/
theorem C98_const_type_violated :
    ∃ (F : Facts Nat) (u : UType Nat), u.isConst = true ∧ ¬ Paper.polymorphic F (.inPlace u []) ∧
      polymorphic20 F (.inPlace u []) = false ∧ polymorphic14 F (.inPlace u []) = true :=
  ⟨Paper.world, ⟨3, true, false, false⟩, by
    refine ⟨?_, ?_, ?_, ?_⟩
    · decide
    · intro h
      exact absurd h.1 (by decide)
    · decide
    · decide⟩

/-- An allocator without default constructor: the paper rejects `U&&` alone, as do indirect.h and polymorphic.h;
indirect_cxx14.h and polymorphic_cxx14.h accept it and then cannot make the allocator. -/
theorem C98_allocator_violated :
    ∃ (F : Facts Nat) (u : UType Nat), F.allocDefault = false ∧ ¬ Paper.indirect F (.value u) ∧
      ¬ Paper.polymorphic F (.value u) ∧ indirect20 F (.value u) = false ∧ polymorphic20 F (.value u) = false ∧
      indirect14 F (.value u) = true ∧ polymorphic14 F (.value u) = true :=
  ⟨{ Paper.world with allocDefault := false }, plain 1, by
    refine ⟨rfl, ?_, ?_, ?_, ?_, ?_, ?_⟩
    · intro h
      exact absurd h.2.2.2 (by decide)
    · intro h
      exact absurd h.2.2.2.2.2 (by decide)
    all_goals decide⟩

/-! The hypotheses are met. -/

example : Paper.Regular Paper.world 3 ∧ Paper.ListsAlike Paper.world 3 ∧
    polymorphic20 Paper.world (.value (ref 3)) = true ∧ polymorphic20 Paper.world (.list (plain 3) 7 []) = true := by
  refine ⟨⟨?_, ?_⟩, ?_, ?_, ?_⟩
  · decide
  · decide
  · intro i us
    cases us <;> simp [Paper.world, plain]
  · decide
  · decide

example : indirect20 Paper.world (.value ⟨5, true, false, true⟩) = true ∧
    indirect20 Paper.world (.assign (plain 1)) = true ∧ indirect20 Paper.world (.value (plain 0)) = false ∧
    indirect20 Paper.world (.inPlace [plain 3, plain 3]) = false := by
  refine ⟨?_, ?_, ?_, ?_⟩ <;> decide

example : indirect14 Paper.world (.value (ref 1)) = true ∧ Paper.world.owned ≠ Paper.world.self ∧
    indirect14 Paper.world (.list 7 []) = true ∧ polymorphic14 Paper.world (.inPlace (plain 3) []) = true := by
  refine ⟨?_, ?_, ?_, ?_⟩ <;> decide

end Verif.Props
