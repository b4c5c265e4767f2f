import Verif.Headers

/-!
# Specification of header files

What a translation unit must be like, and what each header promises, independently of how guards and macros achieve it.
-/

set_option autoImplicit false

namespace Verif.Spec
open Verif.Headers

/-- No `#error` was reached. -/
def NoError (l : List Ev) : Prop := Ev.error ∉ l

/-- No name is defined twice (the one-definition rule in a translation unit). -/
def DefinedOnce (l : List Ev) : Prop :=
  ∀ n v v' before between after, l ≠ before ++ .defn n v :: between ++ .defn n v' :: after

/-- A name is declared after `l`. -/
def Declared (l : List Ev) : Name → Prop
  | .std f => .std f ∈ l
  | n => ∃ v, .defn n v ∈ l

/-- Names for which `P` holds are declared before they are used. -/
def DeclaredBeforeUse (P : Name → Prop) (l : List Ev) : Prop :=
  ∀ n before after, P n → l = before ++ .use n :: after → Declared before n

/-- The names of the standard library that some header uses without including the header that declares them: `remove_cvref_t`
(polymorphic.h:164) and `size_t` (indirect.h:477, indirect_cxx14.h:586). -/
def NotIncluded (n : Name) : Prop := n = .std .typeTraits ∨ n = .std .cstddef

/-- What a header documents (README.md, DRAFT.md). -/
def provides : Header → List Name
  | .std f => [.std f]
  | .featureCheck => []
  | .indirect true => [.indirect, .guides, .hash]
  | .indirect false => [.indirect, .hash, .inPlace]
  | .polymorphic true => [.polymorphic]
  | .polymorphic false => [.polymorphic, .inPlaceType]

/-- The header with the other version of the same class template. -/
def twin : Header → Option Header
  | .indirect v => some (.indirect !v)
  | .polymorphic v => some (.polymorphic !v)
  | _ => none

/-- The language is C++17 or later. -/
def Cxx17 (cc : Compiler) : Prop := 201703 ≤ cc.cplusplus ∨ ∃ l, cc.msvcLang = some l ∧ 201703 ≤ l

/-- The language is C++20 or later. -/
def Cxx20 (cc : Compiler) : Prop := 202002 ≤ cc.cplusplus ∨ ∃ l, cc.msvcLang = some l ∧ 202002 ≤ l

/-- `<memory_resource>` and its content are available. -/
def HasMemoryResource (cc : Compiler) : Prop := Cxx17 cc ∧ cc.hasMemoryResource = true ∧ 201603 ≤ cc.libMemoryResource

/-- All definitions that two translation units share are the same (the one-definition rule in a program). -/
def SameDefinitions (l l' : List Ev) : Prop := ∀ n v v', .defn n v ∈ l → .defn n v' ∈ l' → v = v'

end Verif.Spec
