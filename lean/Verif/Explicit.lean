import Verif.Incomplete

/-!
# Implicit conversions and braces

Which of `owner y = x;`, `owner y = {xs...};`, `owner y(xs...);` and `y = {xs...};` compile, and which function they call.  The same rules decide
about arguments of functions and `return`: they are initialized like `owner y = x;` or `owner y = {xs...};`.

* `owner y = x;` considers the constructors that are not explicit ([over.match.copy], [over.match.ctor]).
* `owner y = {xs...};` considers all constructors, and is ill-formed if an explicit one is selected ([over.match.list]).
* `y = {xs...}` initializes the parameter of an assignment operator with the braces; they are not a type from which a template parameter is deduced
  ([temp.deduct.call]/1), only a default template argument helps.

Overload resolution for one argument, and for one argument behind an allocator, is that of `Verif/Overload.lean`, with its simplifications.
Constructors that take different tags do not compete.  With the same tag, the one with an `initializer_list` is more specialized.
Further simplifications: braces inside braces are used to initialize an `initializer_list`, the allocator or (where a parameter is `U&&` with the default `U = T`) a `T`, not
to initialize another owner; the tags of `polymorphic` are not derived from `T`.
-/

set_option autoImplicit false

namespace Verif
namespace Explicit
open Overload (Arg Types Fn deduce)
open Incomplete (Header)

/-- An initializer in parentheses or braces: an expression, or braces `K`. -/
inductive In (B K : Type) where
  | one (x : Arg B)
  | braces (k : K)

/-- The constructors. -/
inductive Ctor where
  | dflt
  | fwd
  | inPlace
  | inPlaceList
  | copy
  | move
  | aDflt
  | aFwd
  | aInPlace
  | aInPlaceList
  | aCopy
  | aMove
  deriving DecidableEq, Repr

/-- What is known about types, besides what `Types` has. -/
structure Facts (B K : Type) where
  /-- `std::allocator_arg_t` -/
  allocArg : B
  /-- `in_place_t`; for `polymorphic`: `in_place_type_t<U>`, `U` being copyable and derived from `T` -/
  isTag : B → Bool
  /-- can a `const A&` be initialized from it? -/
  toAlloc : In B K → Bool
  /-- the type `I` if an `initializer_list<I>` can be deduced from it -/
  elem : In B K → Option B
  /-- can a `T&&` be initialized from the braces, and is `T` constructible from that? -/
  toOwned : K → Bool
  /-- `std::constructible_from<T, Us...>`, or with an `initializer_list<I>` first -/
  makes : Option B → List (In B K) → Bool

/-- Is the constructor declared `explicit`? -/
def isExplicit : Header → Ctor → Bool
  /- indirect.h:129, 137, 185, 197 -/
  | .indirect20, .copy => false
  | .indirect20, .move => false
  | .indirect20, .aCopy => false
  | .indirect20, .aMove => false
  /- indirect.h:96, 104, 113, 121, 145, 151, 160, 169, 177 -/
  | .indirect20, _ => true
  /- polymorphic.h:189, 195, 240, 250 -/
  | .polymorphic20, .copy => false
  | .polymorphic20, .move => false
  | .polymorphic20, .aCopy => false
  | .polymorphic20, .aMove => false
  /- polymorphic.h:156, 163, 171, 180, 203, 211, 220, 230 -/
  | .polymorphic20, _ => true
  /- indirect_cxx14.h:137, 154, 171 -/
  | .indirect14, .fwd => true
  | .indirect14, .aFwd => true
  | .indirect14, .inPlace => true
  /- indirect_cxx14.h:116, 123, 160, 180, 194, 198, 209, 215, 233 -/
  | .indirect14, _ => false
  /- polymorphic_cxx14.h:254, 269, 289, 311 -/
  | .polymorphic14, .fwd => true
  | .polymorphic14, .aFwd => true
  | .polymorphic14, .inPlace => true
  | .polymorphic14, .inPlaceList => true
  /- polymorphic_cxx14.h:202, 212, 223, 237, 317, 326, 332, 353 -/
  | .polymorphic14, _ => false

section
variable {B K : Type} [DecidableEq B]

/-- The template parameters `Us` can be deduced. -/
def deducible : List (In B K) → Bool
  | [] => true
  | .one _ :: is => deducible is
  | .braces _ :: _ => false

/-- The constraint of the constructors with an `initializer_list`: indirect.h:123, 179; indirect_cxx14.h:177-179, 191-193; polymorphic.h:182-185, 232-234;
polymorphic_cxx14.h:229-236, 243-250. -/
def listOk (f : Facts B K) : List (In B K) → Bool
  | [] => false
  | i :: is => (f.elem i).isSome && deducible is && f.makes (f.elem i) is

/-- The constraint of those with `Us&&...`: indirect.h:114, 170; indirect_cxx14.h:157-159, 165-167; polymorphic.h:172-174, 222-224; polymorphic_cxx14.h:216-222,
259-265. -/
def packOk (f : Facts B K) (is : List (In B K)) : Bool := deducible is && f.makes none is

/-- `owner y(tag, is...)`. -/
def tagged (f : Facts B K) (is : List (In B K)) : Option Ctor :=
  if listOk f is then some .inPlaceList else if packOk f is then some .inPlace else none

/-- `owner y(std::allocator_arg, a, tag, is...)`.  indirect.h:158-166 has one more, with a parameter `U&& u` and the default `U = T`. -/
def aTagged (h : Header) (f : Facts B K) (is : List (In B K)) : Option Ctor :=
  if listOk f is then some .aInPlaceList
  else if packOk f is then some .aInPlace
  else match h, is with
    | .indirect20, [.braces k] => if f.toOwned k then some .aInPlace else none
    | _, _ => none

/-- The constructor that a function with one argument is. -/
def plain : Fn → Ctor
  | .copy => .copy
  | .move => .move
  | .forward => .fwd
  | .inPlace => .inPlace

/-- And with an allocator. -/
def extended : Fn → Ctor
  | .copy => .aCopy
  | .move => .aMove
  | .forward => .aFwd
  | .inPlace => .aInPlace

/-- Do the constraints of `owner(U&&)` hold? -/
def forwardOk (t : Types B) (x : Arg B) : Header → Bool
  | .indirect20 => Overload.indirectCtor t (deduce x)
  | .indirect14 => Overload.indirectCtor14 t (deduce x)
  | .polymorphic20 => Overload.polymorphicCtor t (deduce x)
  | .polymorphic14 => Overload.polymorphicCtorA t (deduce x)

/-- Can a single tag be the argument? -/
def inPlaceOk (t : Types B) : Header → Bool
  | .indirect20 => t.defaultConstructible && t.allocDefault
  | .indirect14 => t.defaultConstructible && t.allocDefault
  | _ => false

/-- `owner y(x)`. -/
def single (h : Header) (t : Types B) (f : Facts B K) (x : Arg B) : Option Ctor :=
  match h with
  | .indirect20 => (Overload.constructs t x).map plain
  | .indirect14 => (Overload.constructs14 t x).map plain
  | .polymorphic20 => if f.isTag x.ty && !x.isVolatile then (if t.allocDefault then tagged f [] else none) else (Overload.constructsP t x).map plain
  | .polymorphic14 => if f.isTag x.ty && !x.isVolatile then (if t.allocDefault then tagged f [] else none) else (Overload.constructsPA t x).map plain

/-- `owner y(std::allocator_arg, a, x)`. -/
def aSingle (h : Header) (t : Types B) (f : Facts B K) (x : Arg B) : Option Ctor :=
  match h with
  | .indirect20 => (Overload.constructsA t x).map extended
  | .indirect14 => (Overload.constructsA14 t x).map extended
  | .polymorphic20 => if f.isTag x.ty && !x.isVolatile then aTagged h f [] else (Overload.constructsPA t x).map extended
  | .polymorphic14 => if f.isTag x.ty && !x.isVolatile then aTagged h f [] else (Overload.constructsPA t x).map extended

/-- `owner y` without arguments: indirect.h:96-97, indirect_cxx14.h:120-123, polymorphic.h:156-157, polymorphic_cxx14.h:206-212. -/
def dfltOk (t : Types B) : Header → Bool
  | .polymorphic14 => t.defaultConstructible && t.allocDefault
  | _ => t.allocDefault

/-- `owner y(std::allocator_arg, a)`: indirect.h:145, indirect_cxx14.h:116, polymorphic.h:203, polymorphic_cxx14.h:199-202. -/
def aDfltOk (t : Types B) : Header → Bool
  | .polymorphic14 => t.defaultConstructible
  | _ => true

/-- Is it a tag, is it `std::allocator_arg`? -/
def isA (p : B → Bool) : In B K → Bool
  | .one x => p x.ty && !x.isVolatile
  | .braces _ => false

/-- What follows an allocator. -/
def afterAlloc (h : Header) (t : Types B) (f : Facts B K) : List (In B K) → Option Ctor
  | [] => if aDfltOk t h then some .aDflt else none
  | [.one x] => aSingle h t f x
  /- `U&& u` with the default `U = T`, indirect.h:150-156; the others have no default. -/
  | [.braces k] => if h = .indirect20 ∧ f.toOwned k = true then some .aFwd else none
  | i :: is => if isA f.isTag i then aTagged h f is else none

/-- The constructor that overload resolution selects for `owner y(is...)`, explicit or not. -/
def select (h : Header) (t : Types B) (f : Facts B K) : List (In B K) → Option Ctor
  | [] => if dfltOk t h then some .dflt else none
  | [.one x] => single h t f x
  /- `U&& u` with the default `U = T`, indirect.h:103-110 -/
  | [.braces k] => if h = .indirect20 ∧ f.toOwned k = true ∧ t.allocDefault = true then some .fwd else none
  | i :: j :: is =>
    if isA (· == f.allocArg) i then (if f.toAlloc j then afterAlloc h t f is else none)
    else if isA f.isTag i && t.allocDefault then tagged f (j :: is) else none

/-- `owner y = {is...};` -/
def copyList (h : Header) (t : Types B) (f : Facts B K) (is : List (In B K)) : Option Ctor :=
  (select h t f is).filter fun c => !isExplicit h c

/-- `owner y = x;` -/
def copyInit (h : Header) (t : Types B) (x : Arg B) : Option Fn :=
  Overload.select t (!isExplicit h .fwd && forwardOk t x h) (!isExplicit h .inPlace && inPlaceOk t h) x

/-- `y = {is...};`: the parameter of the copy and move assignment is initialized with the braces.  One element that is an owner is taken for itself ([over.ics.list]/2); otherwise
both operators need the same constructor, and the move assignment is better.  `operator=(U&&)` of indirect.h:293 and indirect_cxx14.h:303 has no default for `U`. -/
def assignList (h : Header) (t : Types B) (f : Facts B K) : List (In B K) → Option Fn
  | [.one x] => if x.ty = t.self ∨ t.fromSelf x.ty = true then Overload.select t false false x
      else (copyList h t f [.one x]).map fun _ => .move
  | is => (copyList h t f is).map fun _ => .move

end
end Explicit
end Verif
