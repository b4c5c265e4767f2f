import Verif.Proofs.HeadersOrigin

/-!
# C82: the headers together; C83: the macros of feature_check.h

A translation unit may include the headers in any order and as often as it likes, directly or through other headers.
-/

set_option autoImplicit false

namespace Verif.Props
open Verif Verif.Headers

/-- Whatever a translation unit includes, in whatever order: no `#error` is reached and nothing is defined twice. -/
theorem C82_no_redefinition (cc : Compiler) (hs : List Header) :
    Spec.NoError (translate cc hs) ∧ Spec.DefinedOnce (translate cc hs) :=
  ⟨(inv cc hs).noError, (inv cc hs).once⟩

/-- Every name is declared before it is used, except for `std::remove_cvref_t` and `std::size_t`. -/
theorem C82_declared_before_use_partial (cc : Compiler) (hs : List Header) :
    Spec.DeclaredBeforeUse (fun n => ¬ Spec.NotIncluded n) (translate cc hs) := by
  intro n a b p e
  have := good_before _ [] (good_steps (fun n => ¬ Spec.NotIncluded n) cc hs [] noMacros (Inv.start cc)
    ⟨fun p => absurd (.inl rfl) p, fun p => absurd (.inr rfl) p⟩) n a b p e
  simpa using this

/-- If the translation unit includes `<type_traits>` and `<cstddef>` itself, every name is declared before it is used. -/
theorem C82_declared_before_use_with_includes (cc : Compiler) (hs : List Header) :
    Spec.DeclaredBeforeUse (fun _ => True) (translate cc (.std .typeTraits :: .std .cstddef :: hs)) := by
  have i := step cc (.std .cstddef) _ _ (step cc (.std .typeTraits) [] noMacros (Inv.start cc))
  have g := good_steps (fun _ => True) cc hs _ _ i ⟨fun _ => by simp [text, preprocess], fun _ => by simp [text, preprocess]⟩
  intro n a b p e
  have := good_before (P := fun _ => True) (translate cc (.std .typeTraits :: .std .cstddef :: hs)) [] (by
    simpa [translate, preprocessAll, text, preprocess, good] using g) n a b p e
  simpa using this

/-- A compiler for C++20. -/
def gcc20 : Compiler := ⟨202002, none, true, true, 201603, 0, false⟩

/-- polymorphic.h does not include `<type_traits>`, which declares `std::remove_cvref_t`; indirect.h and indirect_cxx14.h do not
include `<cstddef>`, which declares `std::size_t`: they rely on other headers of the standard library to do so. -/
theorem C82_missing_includes :
    ¬ Spec.DeclaredBeforeUse (fun _ => True) (translate gcc20 [.polymorphic true]) ∧
    ¬ Spec.DeclaredBeforeUse (fun _ => True) (translate gcc20 [.indirect true]) ∧
    ¬ Spec.DeclaredBeforeUse (fun _ => True) (translate gcc20 [.indirect false]) := by
  refine ⟨fun h => ?_, fun h => ?_, fun h => ?_⟩
  · have := h (.std .typeTraits) ((translate gcc20 [.polymorphic true]).take 9) ((translate gcc20 [.polymorphic true]).drop 10)
      trivial (by decide)
    exact absurd this (by simp only [Spec.Declared]; decide)
  · have := h (.std .cstddef) ((translate gcc20 [.indirect true]).take 29) ((translate gcc20 [.indirect true]).drop 30)
      trivial (by decide)
    exact absurd this (by simp only [Spec.Declared]; decide)
  · have := h (.std .cstddef) ((translate gcc20 [.indirect false]).take 25) ((translate gcc20 [.indirect false]).drop 26)
      trivial (by decide)
    exact absurd this (by simp only [Spec.Declared]; decide)

/-- A header provides what it documents, whatever is included before and after it, unless the header with the other version of the
same class template is included before it. -/
theorem C82_provides_partial (cc : Compiler) (h : Header) (before after : List Header)
    (ht : ∀ t, Spec.twin h = some t → t ∉ before) :
    ∀ n ∈ Spec.provides h, Spec.Declared (translate cc (before ++ h :: after)) n :=
  provides_all cc h before after ht

/-- After indirect.h, indirect_cxx14.h provides no `xyz::in_place_t`; after polymorphic.h, polymorphic_cxx14.h provides no
`xyz::in_place_type_t`: the guards are the same. -/
theorem C82_hidden_by_other_version (cc : Compiler) :
    ¬ Spec.Declared (translate cc [.indirect true, .indirect false]) .inPlace ∧
    ¬ Spec.Declared (translate cc [.polymorphic true, .polymorphic false]) .inPlaceType := by
  have g1 : (preprocessAll cc [.indirect true] noMacros).2 .indirectH = true := by
    simp [preprocessAll, text, indirect20_eq cc noMacros rfl, Headers.set]
  have g2 : (preprocessAll cc [.polymorphic true] noMacros).2 .polymorphicH = true := by
    simp [preprocessAll, text, polymorphic20_eq cc noMacros rfl, Headers.set]
  have e1 : translate cc [.indirect true, .indirect false] = translate cc [.indirect true] := by
    have := preprocessAll_append cc [.indirect true] [.indirect false] noMacros
    simp only [translate, List.cons_append, List.nil_append] at this ⊢
    rw [this]
    generalize preprocessAll cc [.indirect true] noMacros = r at g1
    simp [preprocessAll, text, indirect14, preprocess, g1]
  have e2 : translate cc [.polymorphic true, .polymorphic false] = translate cc [.polymorphic true] := by
    have := preprocessAll_append cc [.polymorphic true] [.polymorphic false] noMacros
    simp only [translate, List.cons_append, List.nil_append] at this ⊢
    rw [this]
    generalize preprocessAll cc [.polymorphic true] noMacros = r at g2
    simp [preprocessAll, text, polymorphic14, preprocess, g2]
  constructor
  · rw [e1]
    rintro ⟨v, hv⟩
    obtain ⟨h, hh, d⟩ := defs_translate cc _ _ _ hv
    simp only [List.mem_singleton] at hh
    subst hh
    simp [defs] at d
  · rw [e2]
    rintro ⟨v, hv⟩
    obtain ⟨h, hh, d⟩ := defs_translate cc _ _ _ hv
    simp only [List.mem_singleton] at hh
    subst hh
    simp [defs] at d

/-- Which `indirect` a translation unit gets is decided by the first of indirect.h and indirect_cxx14.h that it includes. -/
theorem C82_first_indirect (cc : Compiler) (before after : List Header) (v : Bool) (hb : ∀ w, .indirect w ∉ before)
    (w : Version) :
    .defn .indirect w ∈ translate cc (before ++ .indirect v :: after) ↔ w = if v then .cxx20 else .cxx14 := by
  have := indirect_first cc w (before ++ .indirect v :: after) [] noMacros (Inv.start cc)
  rw [translate, this]
  have f : (before ++ .indirect v :: after).find? ofIndirect = some (.indirect v) := by
    rw [List.find?_append, List.find?_eq_none.2 (fun x hx => by cases x <;> simp [ofIndirect]; exact hb _ hx)]
    simp [List.find?, ofIndirect]
  simp [f, noMacros, version]

/-- Which `polymorphic` a translation unit gets is decided by the first of polymorphic.h and polymorphic_cxx14.h that it
includes. -/
theorem C82_first_polymorphic (cc : Compiler) (before after : List Header) (v : Bool) (hb : ∀ w, .polymorphic w ∉ before)
    (w : Version) :
    .defn .polymorphic w ∈ translate cc (before ++ .polymorphic v :: after) ↔ w = if v then .cxx20 else .cxx14 := by
  have := polymorphic_first cc w (before ++ .polymorphic v :: after) [] noMacros (Inv.start cc)
  rw [translate, this]
  have f : (before ++ .polymorphic v :: after).find? ofPolymorphic = some (.polymorphic v) := by
    rw [List.find?_append, List.find?_eq_none.2 (fun x hx => by cases x <;> simp [ofPolymorphic]; exact hb _ hx)]
    simp [List.find?, ofPolymorphic]
  simp [f, noMacros, version]

/-- Two translation units of a program have the same definitions, if none of them includes one version of a class template where
the other includes the other version. -/
theorem C82_one_definition_partial (cc : Compiler) (hs hs' : List Header)
    (ht : ∀ h ∈ hs, ∀ t, Spec.twin h = some t → t ∉ hs') :
    Spec.SameDefinitions (translate cc hs) (translate cc hs') := by
  intro n v v' d d'
  obtain ⟨h, hh, e⟩ := defs_translate cc n v hs d
  obtain ⟨h', hh', e'⟩ := defs_translate cc n v' hs' d'
  exact defs_agree e e' (fun q => ht h hh h' q hh')

/-- Both versions define `xyz::indirect` and `xyz::polymorphic` in the same namespace: a program in which one translation unit
includes indirect.h and another indirect_cxx14.h violates the one-definition rule. -/
theorem C82_versions_clash (cc : Compiler) :
    ¬ Spec.SameDefinitions (translate cc [.indirect true]) (translate cc [.indirect false]) ∧
    ¬ Spec.SameDefinitions (translate cc [.polymorphic true]) (translate cc [.polymorphic false]) := by
  refine ⟨fun h => ?_, fun h => ?_⟩
  · have a := (C82_first_indirect cc [] [] true (by simp) .cxx20).2 rfl
    have b := (C82_first_indirect cc [] [] false (by simp) .cxx14).2 rfl
    exact absurd (h _ _ _ a b) (by decide)
  · have a := (C82_first_polymorphic cc [] [] true (by simp) .cxx20).2 rfl
    have b := (C82_first_polymorphic cc [] [] false (by simp) .cxx14).2 rfl
    exact absurd (h _ _ _ a b) (by decide)

/-- Once feature_check.h is included, wherever and after whatever, each of these macros is defined exactly if the language has the
feature. -/
theorem C83_language_macros (cc : Compiler) (hs : List Header) (h : .featureCheck ∈ hs) :
    (macrosAfter cc hs .hasStdOptional = true ↔ Spec.Cxx17 cc) ∧
    (macrosAfter cc hs .hasStdInPlaceTypeT = true ↔ Spec.Cxx17 cc) ∧
    (macrosAfter cc hs .hasStdInPlaceT = true ↔ Spec.Cxx17 cc) ∧
    (macrosAfter cc hs .hasTemplateArgumentDeduction = true ↔ Spec.Cxx17 cc) ∧
    (macrosAfter cc hs .hasStdThreeWayComparison = true ↔ Spec.Cxx20 cc) := by
  refine ⟨?_, ?_, ?_, ?_, ?_⟩
  · rw [macros_stand cc hs h _ rfl, ← cxx17_iff]; rfl
  · rw [macros_stand cc hs h _ rfl, ← cxx17_iff]; rfl
  · rw [macros_stand cc hs h _ rfl, ← cxx17_iff]; rfl
  · rw [macros_stand cc hs h _ rfl, ← cxx17_iff]; rfl
  · rw [macros_stand cc hs h _ rfl, ← cxx20_iff]; rfl

/-- indirect_cxx14.h has deduction guides exactly if the language has deduction guides. -/
theorem C83_deduction_guides (cc : Compiler) (before after : List Header) (hb : ∀ w, .indirect w ∉ before) :
    Spec.Declared (translate cc (before ++ .indirect false :: after)) .guides ↔ Spec.Cxx17 cc := by
  rw [← cxx17_iff]
  exact guides_iff cc before after hb

/-- If `XYZ_HAS_STD_MEMORY_RESOURCE` is defined, `<memory_resource>` has been included and has its content; and if the compiler
tells its language by `__cplusplus`, and knows `__has_include`, the macro is defined whenever it could be. -/
theorem C83_memory_resource_partial (cc : Compiler) (hs : List Header) (h : .featureCheck ∈ hs) :
    (macrosAfter cc hs .hasStdMemoryResource = true → Spec.HasMemoryResource cc ∧ .std .memoryResource ∈ translate cc hs) ∧
    (201703 ≤ cc.cplusplus → cc.hasInclude = true → Spec.HasMemoryResource cc →
      macrosAfter cc hs .hasStdMemoryResource = true) := by
  have e := macros_stand cc hs h .hasStdMemoryResource rfl
  refine ⟨fun m => ?_, fun c i r => ?_⟩
  · have m' := m
    rw [e] at m
    simp only [stands, Bool.and_eq_true, decide_eq_true_eq] at m
    obtain ⟨⟨⟨a, b⟩, c⟩, d⟩ := m
    exact ⟨⟨.inl b, c, d⟩, resource_included cc hs a b c h⟩
  · rw [e]
    simp [stands, c, i, r.2.1, r.2.2]

/-- Microsoft's compiler for C++17 without `/Zc:__cplusplus`: `__cplusplus` is 199711L, `_MSVC_LANG` is 201703L. -/
def msvc17 : Compiler := ⟨199711, some 201703, true, true, 201603, 0, true⟩

/-- `XYZ_HAS_STD_MEMORY_RESOURCE` is not defined by that compiler, although `<memory_resource>` and its content are available: the
condition, unlike the others, does not consult `_MSVC_LANG`. -/
theorem C83_memory_resource_missed :
    Spec.HasMemoryResource msvc17 ∧ ∀ hs, .featureCheck ∈ hs → macrosAfter msvc17 hs .hasStdMemoryResource = false := by
  refine ⟨⟨.inr ⟨201703, rfl, by decide⟩, rfl, by decide⟩, fun hs h => ?_⟩
  rw [macros_stand msvc17 hs h .hasStdMemoryResource rfl]
  rfl

/-- The cases are not vacuous: all headers, twice, in an order that mixes versions. -/
example : let hs : List Header := [.featureCheck, .indirect false, .polymorphic true, .indirect true, .indirect false,
      .polymorphic false, .featureCheck]
    (Ev.defn .indirect .cxx14 ∈ translate gcc20 hs) ∧ (Ev.defn .polymorphic .cxx20 ∈ translate gcc20 hs) ∧
    (translate gcc20 hs).length = 40 := by decide +kernel

end Verif.Props
