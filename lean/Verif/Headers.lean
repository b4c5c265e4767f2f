/-!
# The headers as text

What the preprocessor makes of the headers, in the order and as often as a translation unit includes them: the guards, the
conditions and macros of feature_check.h, and which names each header defines and uses.  Everything between the directives is
reduced to the definitions of the names that other text uses, and to the uses of such names and of names of the standard library;
names of the standard library are grouped by the header that declares them.
-/

set_option autoImplicit false

namespace Verif.Headers

/-- What the implementation tells the preprocessor. -/
structure Compiler where
  /-- `__cplusplus` -/
  cplusplus : Nat
  /-- `_MSVC_LANG`, if it is defined -/
  msvcLang : Option Nat
  /-- is `__has_include` defined? -/
  hasInclude : Bool
  /-- `__has_include(<memory_resource>)` -/
  hasMemoryResource : Bool
  /-- `__cpp_lib_memory_resource`, after `<memory_resource>` is included (0: not defined) -/
  libMemoryResource : Nat
  /-- `__cpp_lib_unreachable` (0: not defined) -/
  libUnreachable : Nat
  /-- is `_MSC_VER` defined? -/
  msc : Bool
  deriving DecidableEq, Repr

/-- The macros of the headers. -/
inductive Macro where
  /-- `XYZ_INDIRECT_H` -/
  | indirectH
  /-- `XYZ_POLYMORPHIC_H_` -/
  | polymorphicH
  /-- `XYZ_FEATURE_CHECK_H` -/
  | featureCheckH
  /-- `XYZ_IN_PLACE_DEFINED` -/
  | inPlaceDefined
  /-- `XYZ_IN_PLACE_TYPE_DEFINED` -/
  | inPlaceTypeDefined
  /-- `XYZ_UNREACHABLE_DEFINED` -/
  | unreachableDefined
  /-- `XYZ_EMPTY_BASE_DEFINED` -/
  | emptyBaseDefined
  /-- `XYZ_POLYMORPHIC_HAS_EXTENDED_CONSTRUCTORS` -/
  | hasExtendedConstructors
  /-- `XYZ_HAS_STD_OPTIONAL` -/
  | hasStdOptional
  /-- `XYZ_HAS_STD_IN_PLACE_TYPE_T` -/
  | hasStdInPlaceTypeT
  /-- `XYZ_HAS_STD_IN_PLACE_T` -/
  | hasStdInPlaceT
  /-- `XYZ_HAS_TEMPLATE_ARGUMENT_DEDUCTION` -/
  | hasTemplateArgumentDeduction
  /-- `XYZ_HAS_STD_MEMORY_RESOURCE` -/
  | hasStdMemoryResource
  /-- `XYZ_HAS_STD_THREE_WAY_COMPARISON` -/
  | hasStdThreeWayComparison
  deriving DecidableEq, Repr

/-- Headers of the standard library. -/
inductive Std where
  | cassert | compare | concepts | cstddef | initializerList | memory | memoryResource | typeTraits | utility
  deriving DecidableEq, Repr

/-- Names. -/
inductive Name where
  /-- the names that a header of the standard library declares -/
  | std (f : Std)
  /-- `xyz::in_place_t` -/
  | inPlace
  /-- `xyz::in_place_type_t` -/
  | inPlaceType
  /-- `xyz::unreachable` -/
  | unreachable
  /-- `xyz::detail::empty_base_optimization` -/
  | emptyBase
  /-- `xyz::detail::synth_three_way` -/
  | synthThreeWay
  /-- `xyz::is_indirect_v` -/
  | isIndirectV
  /-- `xyz::is_indirect` -/
  | isIndirect
  /-- `xyz::indirect` -/
  | indirect
  /-- the deduction guides of `xyz::indirect` -/
  | guides
  /-- `xyz::is_hashable` -/
  | isHashable
  /-- `std::hash<xyz::indirect<T, A>>` -/
  | hash
  /-- `xyz::polymorphic` -/
  | polymorphic
  deriving DecidableEq, Repr

/-- Which text defines a name: that of the C++20 headers, that of the C++14 headers, or one that is in several headers, token by
token the same. -/
inductive Version where
  | cxx20 | cxx14 | same
  deriving DecidableEq, Repr

/-- The text of a header. -/
inductive Text where
  | fin
  /-- `#ifndef m … #endif` -/
  | ifndef (m : Macro) (body rest : Text)
  /-- `#ifdef m … #endif` -/
  | ifdef (m : Macro) (body rest : Text)
  /-- `#if c … #endif` -/
  | cond (c : Compiler → Bool) (body rest : Text)
  /-- `#define m` -/
  | define (m : Macro) (rest : Text)
  /-- `#error` -/
  | error (rest : Text)
  /-- `#include <f>` -/
  | std (f : Std) (rest : Text)
  /-- `#include "…"` of a header with this text -/
  | incl (text rest : Text)
  /-- a definition -/
  | defn (n : Name) (v : Version) (rest : Text)
  /-- a use -/
  | use (n : Name) (rest : Text)

/-- What the compiler sees. -/
inductive Ev where
  | std (f : Std)
  | defn (n : Name) (v : Version)
  | use (n : Name)
  /-- the program is ill-formed -/
  | error
  deriving DecidableEq, Repr

/-- Which macros are defined. -/
abbrev Macros := Macro → Bool

/-- `#define k` -/
def set (m : Macros) (k : Macro) : Macros := fun x => if x = k then true else m x

/-- The preprocessor: what it lets through, and the macros that are defined then. -/
def preprocess (cc : Compiler) : Text → Macros → List Ev × Macros
  | .fin, m => ([], m)
  | .ifndef k body rest, m =>
    let b := if m k then ([], m) else preprocess cc body m
    let r := preprocess cc rest b.2
    (b.1 ++ r.1, r.2)
  | .ifdef k body rest, m =>
    let b := if m k then preprocess cc body m else ([], m)
    let r := preprocess cc rest b.2
    (b.1 ++ r.1, r.2)
  | .cond c body rest, m =>
    let b := if c cc then preprocess cc body m else ([], m)
    let r := preprocess cc rest b.2
    (b.1 ++ r.1, r.2)
  | .define k rest, m => preprocess cc rest (set m k)
  | .error rest, m =>
    let r := preprocess cc rest m
    (.error :: r.1, r.2)
  | .std f rest, m =>
    let r := preprocess cc rest m
    (.std f :: r.1, r.2)
  | .incl text rest, m =>
    let b := preprocess cc text m
    let r := preprocess cc rest b.2
    (b.1 ++ r.1, r.2)
  | .defn n v rest, m =>
    let r := preprocess cc rest m
    (.defn n v :: r.1, r.2)
  | .use n rest, m =>
    let r := preprocess cc rest m
    (.use n :: r.1, r.2)

/-- `(__cplusplus >= 201703L) || (defined(_MSVC_LANG) && _MSVC_LANG >= 201703L)`, feature_check.h:35 -/
def cxx17 (cc : Compiler) : Bool := decide (201703 ≤ cc.cplusplus) || match cc.msvcLang with
  | some l => decide (201703 ≤ l)
  | none => false

/-- `(__cplusplus >= 202002L) || (defined(_MSVC_LANG) && _MSVC_LANG >= 202002L)`, feature_check.h:93 -/
def cxx20 (cc : Compiler) : Bool := decide (202002 ≤ cc.cplusplus) || match cc.msvcLang with
  | some l => decide (202002 ≤ l)
  | none => false

/-- feature_check.h:21-98 -/
def featureCheck : Text :=
  .ifndef .featureCheckH
    (.define .featureCheckH <|
     .ifdef .hasStdOptional (.error .fin) <|
     .cond cxx17 (.define .hasStdOptional .fin) <|
     .ifdef .hasStdInPlaceTypeT (.error .fin) <|
     .cond cxx17 (.define .hasStdInPlaceTypeT .fin) <|
     .ifdef .hasStdInPlaceT (.error .fin) <|
     .cond cxx17 (.define .hasStdInPlaceT .fin) <|
     .cond cxx17 (.define .hasTemplateArgumentDeduction .fin) <|
     .cond (·.hasInclude)
       (.cond (fun cc => decide (201703 ≤ cc.cplusplus) && cc.hasMemoryResource)
         (.std .memoryResource <|
          .cond (fun cc => decide (201603 ≤ cc.libMemoryResource)) (.define .hasStdMemoryResource .fin) .fin)
         .fin) <|
     .ifdef .hasStdThreeWayComparison (.error .fin) <|
     .cond cxx20 (.define .hasStdThreeWayComparison .fin) .fin)
    .fin

/-- `xyz::unreachable` (indirect.h:34-46, indirect_cxx14.h:39-51, polymorphic.h:36-48, polymorphic_cxx14.h:43-57): the same in all
headers.  `std::unreachable` is used only if the library has it. -/
def unreachable (rest : Text) : Text :=
  .ifndef .unreachableDefined
    (.define .unreachableDefined <|
     .defn .unreachable .same <|
     .cond (fun cc => decide (202202 ≤ cc.libUnreachable)) (.use (.std .utility) .fin) .fin)
    rest

/-- `empty_base_optimization` (indirect_cxx14.h:53-94, polymorphic_cxx14.h:59-101): the same in both headers. -/
def emptyBase (rest : Text) : Text :=
  .ifndef .emptyBaseDefined
    (.define .emptyBaseDefined <|
     .use (.std .typeTraits) <| .use (.std .utility) <|
     .defn .emptyBase .same .fin)
    rest

/-- indirect.h:21-485 -/
def indirect20 : Text :=
  .ifndef .indirectH
    (.define .indirectH <|
     .std .cassert <| .std .compare <| .std .concepts <| .std .initializerList <| .std .memory <| .std .typeTraits <| .std .utility <|
     unreachable <|
     .use (.std .concepts) <| .use (.std .compare) <| .use (.std .utility) <|
     .defn .synthThreeWay .cxx20 <|
     .defn .isIndirectV .cxx20 <|
     .use (.std .memory) <| .use (.std .utility) <| .use (.std .concepts) <| .use (.std .typeTraits) <| .use (.std .initializerList) <|
     .use (.std .compare) <| .use (.std .cassert) <|
     .use .unreachable <| .use .isIndirectV <| .use .synthThreeWay <|
     .defn .indirect .cxx20 <|
     .defn .isHashable .cxx20 <|
     .use .indirect <| .defn .guides .cxx20 <|
     .use .isHashable <| .use .indirect <| .use (.std .cstddef) <| .defn .hash .cxx20 .fin)
    .fin

/-- indirect_cxx14.h:21-594 -/
def indirect14 : Text :=
  .ifndef .indirectH
    (.define .indirectH <|
     .std .cassert <| .std .initializerList <| .std .memory <| .std .typeTraits <| .std .utility <|
     .incl featureCheck <|
     .ifndef .inPlaceDefined (.define .inPlaceDefined <| .defn .inPlace .cxx14 .fin) <|
     unreachable <|
     emptyBase <|
     .defn .isIndirect .cxx14 <|
     .use .emptyBase <| .use (.std .memory) <| .use (.std .utility) <| .use (.std .typeTraits) <| .use (.std .initializerList) <|
     .use (.std .cassert) <| .use .inPlace <| .use .unreachable <| .use .isIndirect <|
     .defn .indirect .cxx14 <|
     .ifdef .hasTemplateArgumentDeduction (.use .indirect <| .defn .guides .cxx14 .fin) <|
     .use .indirect <| .use (.std .cstddef) <| .defn .hash .cxx14 .fin)
    .fin

/-- polymorphic.h:21-406 -/
def polymorphic20 : Text :=
  .ifndef .polymorphicH
    (.define .polymorphicH <|
     .std .cassert <| .std .concepts <| .std .initializerList <| .std .memory <| .std .utility <|
     .ifndef .hasExtendedConstructors (.define .hasExtendedConstructors .fin) <|
     unreachable <|
     .use (.std .memory) <| .use (.std .utility) <| .use (.std .concepts) <| .use (.std .typeTraits) <| .use (.std .initializerList) <|
     .use (.std .cassert) <| .use .unreachable <|
     .defn .polymorphic .cxx20 .fin)
    .fin

/-- polymorphic_cxx14.h:21-476 -/
def polymorphic14 : Text :=
  .ifndef .polymorphicH
    (.define .polymorphicH <|
     .std .cassert <| .std .initializerList <| .std .memory <| .std .typeTraits <| .std .utility <|
     .ifndef .hasExtendedConstructors (.define .hasExtendedConstructors .fin) <|
     .ifndef .inPlaceTypeDefined (.define .inPlaceTypeDefined <| .defn .inPlaceType .cxx14 .fin) <|
     unreachable <|
     emptyBase <|
     .use .emptyBase <| .use (.std .memory) <| .use (.std .utility) <| .use (.std .typeTraits) <| .use (.std .initializerList) <|
     .use (.std .cassert) <| .use .inPlaceType <| .use .unreachable <|
     .defn .polymorphic .cxx14 .fin)
    .fin

/-- What a translation unit includes. -/
inductive Header where
  | std (f : Std)
  | featureCheck
  | indirect (v : Bool)
  | polymorphic (v : Bool)
  deriving DecidableEq, Repr

/-- The text of a header; `true` is the C++20 version. -/
def text : Header → Text
  | .std f => .std f .fin
  | .featureCheck => featureCheck
  | .indirect true => indirect20
  | .indirect false => indirect14
  | .polymorphic true => polymorphic20
  | .polymorphic false => polymorphic14

/-- No macro of the headers is defined yet. -/
def noMacros : Macros := fun _ => false

/-- A translation unit that includes these headers, with the macros `m` defined before. -/
def preprocessAll (cc : Compiler) : List Header → Macros → List Ev × Macros
  | [], m => ([], m)
  | h :: hs, m =>
    let b := preprocess cc (text h) m
    let r := preprocessAll cc hs b.2
    (b.1 ++ r.1, r.2)

/-- What the compiler sees of a translation unit that includes these headers. -/
def translate (cc : Compiler) (hs : List Header) : List Ev := (preprocessAll cc hs noMacros).1

/-- The macros that are defined then. -/
def macrosAfter (cc : Compiler) (hs : List Header) : Macros := (preprocessAll cc hs noMacros).2

end Verif.Headers
