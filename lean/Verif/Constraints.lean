import Verif.Overload

/-!
# Which arguments the templates accept

The constraints of the constructor and assignment templates of the four headers, in terms of what is true of the types.
The standard library's concepts are defined from the traits as [concepts] does it.  `UType` is that of
`Verif/Overload.lean`: `U` is `cv B` for rvalues, `cv B&` for lvalues.  `is_constructible<T, U&&>` is the same question as
`is_constructible<T, U>` ([meta.unary.prop]: the arguments are `declval<U>()`).

Not modelled: non-template members (they have no constraints but `default_initializable<A>`), deduction guides (C71),
which template wins if several accept (C49, C91).
-/

set_option autoImplicit false

namespace Verif.Constraints
open Overload (UType plain removeCvref removeCv)

/-- What is true of the types.  `T` is `owned`. -/
structure Facts (B : Type) where
  /-- the specialization of `indirect` or `polymorphic` -/
  self : B
  /-- `T` -/
  owned : B
  /-- `std::in_place_t`, `xyz::in_place_t` -/
  inPlace : B
  /-- `b` is a specialization of `in_place_type_t` -/
  isTag : B → Bool
  /-- `std::initializer_list<b>` -/
  list : B → B
  /-- `std::is_constructible_v<b, us...>` -/
  constructible : B → List (UType B) → Bool
  /-- `std::is_nothrow_destructible_v<b>` -/
  nothrowDtor : B → Bool
  /-- `std::convertible_to<u, b>` -/
  convertible : UType B → B → Bool
  /-- `std::is_assignable_v<T&, u>` -/
  assignable : UType B → Bool
  /-- the type of that assignment expression is `T&` -/
  assignGivesRef : UType B → Bool
  /-- `std::common_reference_with<const T&, const std::remove_reference_t<u>&>` -/
  commonRef : UType B → Bool
  /-- `std::is_base_of_v<T, b>` -/
  baseOf : B → Bool
  /-- `const volatile b*` converts to `const volatile T*` -/
  pointerConverts : B → Bool
  /-- `std::is_default_constructible_v<A>` -/
  allocDefault : Bool
  /-- `A` is nothrow destructible, and `A{}` and `A a;` are well-formed -/
  allocInit : Bool
  /-- `T{}` and `T t;` are well-formed -/
  ownedInit : Bool

section
variable {B : Type} [DecidableEq B] (F : Facts B)

/-- `const b&` -/
def constRef (b : B) : UType B := ⟨b, true, false, true⟩
/-- `b&` -/
def ref (b : B) : UType B := ⟨b, false, false, true⟩
/-- `const b` -/
def const (b : B) : UType B := ⟨b, true, false, false⟩

/-- `std::constructible_from` ([concept.constructible], [concept.destructible]). -/
def constructibleFrom (b : B) (us : List (UType B)) : Bool := F.nothrowDtor b && F.constructible b us

/-- `std::move_constructible` ([concept.moveconstructible]). -/
def moveConstructible (b : B) : Bool := constructibleFrom F b [plain b] && F.convertible (plain b) b

/-- `std::copy_constructible` ([concept.copyconstructible]). -/
def copyConstructible (b : B) : Bool :=
  moveConstructible F b && constructibleFrom F b [ref b] && F.convertible (ref b) b &&
    constructibleFrom F b [constRef b] && F.convertible (constRef b) b && constructibleFrom F b [const b] &&
    F.convertible (const b) b

/-- `std::is_copy_constructible_v` ([meta.unary.prop]). -/
def isCopyConstructible (b : B) : Bool := F.constructible b [constRef b]

/-- `std::assignable_from<T&, u>` ([concept.assignable]). -/
def assignableFrom (u : UType B) : Bool := F.commonRef u && F.assignable u && F.assignGivesRef u

/-- `std::derived_from<b, T>` ([concept.derived]). -/
def derivedFrom (b : B) : Bool := F.baseOf b && F.pointerConverts b

/-- `std::default_initializable<A>` ([concept.default.init]). -/
def defaultInitializable : Bool := F.allocDefault && F.allocInit

/-- The templates of `indirect`, with template arguments. -/
inductive ICall (B : Type) where
  /-- `indirect(U&&)` -/
  | value (u : UType B)
  /-- `indirect(allocator_arg_t, const A&, U&&)` -/
  | valueA (u : UType B)
  /-- `indirect(in_place_t, Us&&...)` -/
  | inPlace (us : List (UType B))
  /-- `indirect(allocator_arg_t, const A&, in_place_t, Us&&...)` -/
  | inPlaceA (us : List (UType B))
  /-- `indirect(in_place_t, initializer_list<I>, Us&&...)` -/
  | list (i : B) (us : List (UType B))
  /-- `indirect(allocator_arg_t, const A&, in_place_t, initializer_list<I>, Us&&...)` -/
  | listA (i : B) (us : List (UType B))
  /-- `operator=(U&&)` -/
  | assign (u : UType B)

/-- The templates of `polymorphic`, with template arguments. -/
inductive PCall (B : Type) where
  /-- `polymorphic(U&&)` -/
  | value (u : UType B)
  /-- `polymorphic(allocator_arg_t, const A&, U&&)` -/
  | valueA (u : UType B)
  /-- `polymorphic(in_place_type_t<U>, Ts&&...)` -/
  | inPlace (u : UType B) (us : List (UType B))
  /-- `polymorphic(allocator_arg_t, const A&, in_place_type_t<U>, Ts&&...)` -/
  | inPlaceA (u : UType B) (us : List (UType B))
  /-- `polymorphic(in_place_type_t<U>, initializer_list<I>, Ts&&...)` -/
  | list (u : UType B) (i : B) (us : List (UType B))
  /-- `polymorphic(allocator_arg_t, const A&, in_place_type_t<U>, initializer_list<I>, Ts&&...)` -/
  | listA (u : UType B) (i : B) (us : List (UType B))

/-- indirect.h. -/
def indirect20 : ICall B → Bool
  /- :103-107 -/
  | .value u => !(removeCvref u == plain F.self) && !(removeCvref u == plain F.inPlace) &&
      constructibleFrom F F.owned [u] && defaultInitializable F
  /- :150-154 -/
  | .valueA u => !(removeCvref u == plain F.self) && !(removeCvref u == plain F.inPlace) &&
      constructibleFrom F F.owned [u]
  /- :112-115 -/
  | .inPlace us => constructibleFrom F F.owned us && defaultInitializable F
  /- :168-171; :159-163, for one argument, asks for more -/
  | .inPlaceA us => constructibleFrom F F.owned us
  /- :120-124 -/
  | .list i us => constructibleFrom F F.owned (ref (F.list i) :: us) && defaultInitializable F
  /- :176-180 -/
  | .listA i us => constructibleFrom F F.owned (ref (F.list i) :: us)
  /- :294-297 -/
  | .assign u => !(removeCvref u == plain F.self) && constructibleFrom F F.owned [u] && assignableFrom F u

/-- indirect_cxx14.h. -/
def indirect14 : ICall B → Bool
  /- :142-154; `A{}` is formed without asking whether it can be -/
  | .value u => (plain F.owned == removeCvref u) && !(removeCvref u == plain F.inPlace)
  /- :125-137 -/
  | .valueA u => (plain F.owned == removeCvref u) && !(removeCvref u == plain F.inPlace)
  /- :165-171 -/
  | .inPlace us => F.constructible F.owned us && F.allocDefault
  /- :158-161 -/
  | .inPlaceA us => F.constructible F.owned us
  /- :186-194 -/
  | .list i us => F.allocDefault && F.constructible F.owned (plain (F.list i) :: us)
  /- :175-181 -/
  | .listA i us => F.constructible F.owned (plain (F.list i) :: us)
  /- :303-308 -/
  | .assign u => F.constructible F.owned [u] && F.assignable u && !(removeCv u == plain F.self)

/-- polymorphic.h. -/
def polymorphic20 : PCall B → Bool
  /- :162-167 -/
  | .value u => !(plain F.self == removeCvref u) && copyConstructible F (removeCvref u).ty &&
      derivedFrom F (removeCvref u).ty && defaultInitializable F
  /- :210-214 -/
  | .valueA u => !(plain F.self == removeCvref u) && copyConstructible F (removeCvref u).ty &&
      derivedFrom F (removeCvref u).ty
  /- :170-175 -/
  | .inPlace u us => (removeCvref u == u) && constructibleFrom F u.ty us && copyConstructible F u.ty &&
      derivedFrom F u.ty && defaultInitializable F
  /- :219-224 -/
  | .inPlaceA u us => (removeCvref u == u) && constructibleFrom F u.ty us && copyConstructible F u.ty &&
      derivedFrom F u.ty
  /- :179-185 -/
  | .list u i us => (removeCvref u == u) && constructibleFrom F u.ty (plain (F.list i) :: us) &&
      copyConstructible F u.ty && derivedFrom F u.ty && defaultInitializable F
  /- :229-235 -/
  | .listA u i us => (removeCvref u == u) && constructibleFrom F u.ty (plain (F.list i) :: us) &&
      copyConstructible F u.ty && derivedFrom F u.ty

/-- polymorphic_cxx14.h. -/
def polymorphic14 : PCall B → Bool
  /- :295-311; `A{}` is formed without asking whether it can be -/
  | .value u => !(plain F.self == removeCvref u) && isCopyConstructible F (removeCvref u).ty &&
      F.baseOf (removeCvref u).ty
  /- :273-289 -/
  | .valueA u => !(plain F.self == removeCvref u) && isCopyConstructible F (removeCvref u).ty &&
      F.baseOf (removeCvref u).ty
  /- :259-269.  There is no test for cv-qualifiers.  `is_base_of` holds of no reference, is the same for `const U`, and so
     are the other traits of a class; what they say of `volatile U` is not in `F`: taken to be false. -/
  | .inPlace u us => (!u.isRef && !u.isVolatile) && F.constructible u.ty us && isCopyConstructible F u.ty && F.baseOf u.ty &&
      F.allocDefault
  /- :216-224, with the same simplification -/
  | .inPlaceA u us => (!u.isRef && !u.isVolatile) && F.constructible u.ty us && isCopyConstructible F u.ty && F.baseOf u.ty
  /- :243-255, with the same simplification -/
  | .list u i us => (!u.isRef && !u.isVolatile) && F.constructible u.ty (plain (F.list i) :: us) &&
      isCopyConstructible F u.ty && F.baseOf u.ty && F.allocDefault
  /- :229-238, with the same simplification -/
  | .listA u i us => (!u.isRef && !u.isVolatile) && F.constructible u.ty (plain (F.list i) :: us) &&
      isCopyConstructible F u.ty && F.baseOf u.ty

/-- The construction of the owned object that the definition needs: of which type, from what.  If it is not well-formed
the program is rejected, although the template was selected.  `construct_from`, indirect.h:443-454 and
indirect_cxx14.h:555-565. -/
def builds : ICall B → B × List (UType B)
  | .value u | .valueA u | .assign u => (F.owned, [u])
  | .inPlace us | .inPlaceA us => (F.owned, us)
  | .list i us | .listA i us => (F.owned, ref (F.list i) :: us)

/-- The same for `polymorphic`: `create_control_block`, polymorphic.h:128-144.  The parameter `ilist` is passed on as an
lvalue (:186, :237).  That of polymorphic_cxx14.h differs in the last two, which build a `T` (:240, C42). -/
def buildsP : PCall B → B × List (UType B)
  | .value u | .valueA u => ((removeCvref u).ty, [u])
  | .inPlace u us | .inPlaceA u us => (u.ty, us)
  | .list u i us | .listA u i us => (u.ty, ref (F.list i) :: us)

end
end Verif.Constraints
