import Verif.Constraints

/-!
# For which owned types the members can be used

The static assertions of the members that are not templates, and the expressions in their definitions that must be
well-formed when they are instantiated.  `Facts` is that of `Verif/Constraints.lean`.

A branch of a plain `if` is instantiated whether or not it is taken; one of an `if constexpr` is not.

Simplification: `T` is complete (C85) and its destructor is accessible.
-/

set_option autoImplicit false

namespace Verif.Constraints
open Overload (UType plain removeCvref)

/-- Members of an owner that create or assign owned objects. -/
inductive Member where
  /-- `()` -/
  | make
  /-- `(allocator_arg_t, const A&)` -/
  | makeA
  /-- `(const owner&)` -/
  | copy
  /-- `(allocator_arg_t, const A&, const owner&)` -/
  | copyA
  /-- `(owner&&)` -/
  | move
  /-- `(allocator_arg_t, const A&, owner&&)` -/
  | moveA
  /-- `operator=(const owner&)` -/
  | copyAssign
  /-- `operator=(owner&&)` -/
  | moveAssign

section
variable {B : Type} (F : Facts B)

/-- `std::default_initializable<T>` ([concept.default.init]). -/
def ownedDefaultInitializable : Bool := constructibleFrom F F.owned [] && F.ownedInit

/-- indirect.h.  `alwaysEqual` is `allocator_traits::is_always_equal::value`. -/
def uses20 (alwaysEqual : Bool) : Member → Bool
  /- the assertion :99, `construct_from` :100 -/
  | .make => ownedDefaultInitializable F && F.constructible F.owned []
  /- :147 -/
  | .makeA => F.constructible F.owned []
  /- the assertion :134, and what it delegates to (:130-133) -/
  | .copy => copyConstructible F F.owned && (copyConstructible F F.owned && F.constructible F.owned [constRef F.owned])
  /- the assertion :188, and :194, where `*other` is a `const T&` -/
  | .copyA => copyConstructible F F.owned && F.constructible F.owned [constRef F.owned]
  /- delegates (:139) -/
  | .move => moveConstructible F F.owned && (alwaysEqual || F.constructible F.owned [plain F.owned])
  /- the assertion :201, and :210, discarded by `if constexpr` :203 -/
  | .moveA => moveConstructible F F.owned && (alwaysEqual || F.constructible F.owned [plain F.owned])
  /- the assertion :229, the assignment :244 from `const T&`, and :249, where `*other.p_` is a `T&` -/
  | .copyAssign => copyConstructible F F.owned && F.assignable (constRef F.owned) && F.constructible F.owned [ref F.owned]
  /- the assertion :263, and :282-283 -/
  | .moveAssign => moveConstructible F F.owned && F.constructible F.owned [plain F.owned]

/-- indirect_cxx14.h. -/
def uses14 : Member → Bool
  /- :123, :117 -/
  | .make => F.constructible F.owned []
  /- :117 -/
  | .makeA => F.constructible F.owned []
  /- delegates (:209-213) -/
  | .copy => isCopyConstructible F F.owned && F.constructible F.owned [constRef F.owned]
  /- the assertion :200, and :206 -/
  | .copyA => isCopyConstructible F F.owned && F.constructible F.owned [constRef F.owned]
  /- delegates (:233-235) -/
  | .move => F.constructible F.owned [plain F.owned]
  /- :225, under a plain `if` -/
  | .moveA => F.constructible F.owned [plain F.owned]
  /- the assignment :253 and :257-259, where `*other.p_` is a `T&` -/
  | .copyAssign => F.assignable (constRef F.owned) && F.constructible F.owned [ref F.owned]
  /- :290-292 -/
  | .moveAssign => F.constructible F.owned [plain F.owned]

/-- The first operand of the test whether copy assignment assigns to the owned object: `std::assignable_from<T&, T>`,
indirect.h:242. -/
def inPlace20 : Bool := assignableFrom F (plain F.owned)

/-- The same: `std::is_copy_assignable<T>::value`, indirect_cxx14.h:251. -/
def inPlace14 : Bool := F.assignable (constRef F.owned)

/-- What a control block for a `b` needs, since its virtual functions are instantiated with it: `clone` constructs from an
lvalue, `move` from an rvalue, and the pointer to the `b` converts to a pointer to `T`.  polymorphic.h:77-107,
polymorphic_cxx14.h:132-162. -/
def blockNeeds (b : B) : Bool :=
  F.constructible b [ref b] && F.constructible b [plain b] && F.pointerConverts b

/-- polymorphic.h: default construction asserts (:159, :205) and makes a block of `T` (:207).  Nothing else mentions `T`:
copies and moves go through the virtual functions. -/
def usesP20 : Member → Bool
  | .make => (ownedDefaultInitializable F && copyConstructible F F.owned) &&
      ((ownedDefaultInitializable F && copyConstructible F F.owned) && F.constructible F.owned [] && blockNeeds F F.owned)
  | .makeA => (ownedDefaultInitializable F && copyConstructible F F.owned) && F.constructible F.owned [] &&
      blockNeeds F F.owned
  | _ => true

/-- polymorphic_cxx14.h: the constraint of default construction :199-201, :206-208 and the block :203, :213. -/
def usesP14 : Member → Bool
  | .make => F.constructible F.owned [] && (F.constructible F.owned [] && blockNeeds F F.owned)
  | .makeA => F.constructible F.owned [] && (F.constructible F.owned [] && blockNeeds F F.owned)
  | _ => true

end
end Verif.Constraints
