import Verif.Spec.Explicit
import Verif.Props.Overload

/-!
# C91: implicit conversions and braces

An owner is never made where no owner is written: `owner y = x;`, arguments and `return` accept owners only.  The C++20 headers have no other implicit conversions; the C++14 headers
make owners from some braces.
-/

set_option autoImplicit false
set_option linter.unusedSectionVars false
set_option linter.unusedSimpArgs false

namespace Verif.Props
open Verif.Explicit Verif.Spec.Conversions
open Verif.Overload (Arg Types Fn deduce)
open Verif.Incomplete (Header)

section
variable {B K : Type} [DecidableEq B]

/-- Copy and move are selected only for owners, and as users expect. -/
private theorem select_owner {t : Types B} {a b : Bool} {x : Arg B} {g : Fn} (h : Overload.select t a b x = some g) (hg : g = .copy ∨ g = .move) :
    IsOwner t x ∧ g = Spec.Conversions.copyOrMove x := by
  have hb := List.find?_some h
  unfold Overload.isBest at hb
  rcases hg with rfl | rfl
  · cases hc : Overload.bindCopy t x with
    | none => simp [Overload.viable, hc] at hb
    | some i =>
      have ho : IsOwner t x := by
        unfold Overload.bindCopy at hc
        split at hc
        · assumption
        · cases hc
      refine ⟨ho, ?_⟩
      cases hm : Overload.bindMove t x with
      | none =>
        unfold Overload.bindMove at hm
        split at hm
        · cases hm
        · rename_i hn
          unfold Spec.Conversions.copyOrMove
          split
          · rename_i hx
            simp at hx
            exact absurd ⟨ho.1, hx.2, ho.2, hx.1⟩ hn
          · rfl
      | some j =>
        exfalso
        have hbb : Overload.beats x .copy i .move j = true := by
          simp only [Overload.viable, hc] at hb
          simp only [Overload.all, List.all_cons, Overload.viable, hm, Bool.and_eq_true] at hb
          simpa using hb.2.1
        have e1 : i = ⟨x.ty ≠ t.self, true, false, true, false⟩ := by
          unfold Overload.bindCopy at hc
          split at hc <;> simp_all
        have e2 : j = ⟨x.ty ≠ t.self, true, true, false, false⟩ ∧ x.isLvalue = false := by
          unfold Overload.bindMove at hm
          split at hm <;> simp_all
        rw [e1, e2.1] at hbb
        simp [Overload.beats, Overload.better, Overload.nonTemplate, e2.2] at hbb
  · cases hm : Overload.bindMove t x with
    | none => simp [Overload.viable, hm] at hb
    | some j =>
      unfold Overload.bindMove at hm
      split at hm
      · rename_i hn
        exact ⟨⟨hn.1, hn.2.2.1⟩, by simp [Spec.Conversions.copyOrMove, hn]⟩
      · cases hm

/-- Without the templates, owners are copied and moved, and nothing else compiles. -/
private theorem select_none (t : Types B) (x : Arg B) :
    (IsOwner t x → Overload.select t false false x = some (Spec.Conversions.copyOrMove x)) ∧ (¬ IsOwner t x → Overload.select t false false x = none) := by
  obtain ⟨ty, c, v, l⟩ := x
  constructor
  · rintro ⟨ho, hv⟩
    simp only at ho hv
    subst hv
    cases c <;> cases l <;>
      simp [Overload.select, Overload.all, Overload.isBest, Overload.viable, Overload.bindCopy, Overload.bindMove, Overload.beats, Overload.better,
        Overload.nonTemplate, List.find?, ho, Spec.Conversions.copyOrMove]
  · intro hn
    have hc : Overload.bindCopy t ⟨ty, c, v, l⟩ = none := by
      unfold Overload.bindCopy
      exact if_neg hn
    have hm : Overload.bindMove t ⟨ty, c, v, l⟩ = none := by
      unfold Overload.bindMove
      exact if_neg fun h => hn ⟨h.1, h.2.2.1⟩
    simp [Overload.select, Overload.all, Overload.isBest, Overload.viable, hc, hm, List.find?]

/-- **C91**, all four headers: `owner y = x;`, and with it arguments and `return x;`, compile exactly if `x` is an owner or of a class derived from it, whatever the owned type can be
made from; then the owner is copied or moved. -/
theorem C91_copy_init (h : Header) (t : Types B) (x : Arg B) :
    (∃ g, copyInit h t x = some g) ↔ IsOwner t x := by
  have e : copyInit h t x = Overload.select t false false x := by cases h <;> rfl
  rw [e]
  constructor
  · rintro ⟨g, hg⟩
    by_cases ho : IsOwner t x
    · exact ho
    · rw [(select_none t x).2 ho] at hg
      cases hg
  · exact fun ho => ⟨_, (select_none t x).1 ho⟩

/-- Which function it is. -/
theorem C91_copy_init_how (h : Header) (t : Types B) (x : Arg B) (ho : IsOwner t x) : copyInit h t x = some (Spec.Conversions.copyOrMove x) := by
  have e : copyInit h t x = Overload.select t false false x := by cases h <;> rfl
  rw [e, (select_none t x).1 ho]

private theorem props_copyOrMove {x : Arg B} (hv : x.isVolatile = false) : Props.copyOrMove x = some (Spec.Conversions.copyOrMove x) := by
  unfold Props.copyOrMove Spec.Conversions.copyOrMove
  rw [hv]
  cases x.isLvalue <;> cases x.isConst <;> rfl

private theorem single_self (h : Header) {t : Types B} {f : Facts B K} (hs : Separate t f) {x : Arg B} (hx : x.ty = t.self) (hv : x.isVolatile = false) :
    single h t f x = some (plain (Spec.Conversions.copyOrMove x)) ∧ aSingle h t f x = some (extended (Spec.Conversions.copyOrMove x)) := by
  have hd : Distinct t := ⟨hs.owned, hs.inPlace⟩
  have e := props_copyOrMove hv
  have ht : f.isTag x.ty = false := hx ▸ hs.tag
  cases h with
  | indirect20 => simp only [single, aSingle, C49_construct hd hx, C49_construct_with_allocator hd hx, e, Option.map_some, and_self]
  | indirect14 => simp only [single, aSingle, C49_construct_cxx14 hd hx, e, Option.map_some, and_self]
  | polymorphic20 => simp [single, aSingle, C49_construct_polymorphic hd hx, e, ht]
  | polymorphic14 => simp [single, aSingle, C49_construct_polymorphic hd hx, e, ht]

/-- For an owner `owner y = x;` and `owner y(x);` are the same. -/
theorem C91_same (h : Header) {t : Types B} {f : Facts B K} (hs : Separate t f) {x : Arg B} (hx : x.ty = t.self) (hv : x.isVolatile = false) :
    select h t f [.one x] = (copyInit h t x).map plain := by
  rw [C91_copy_init_how h t x ⟨.inl hx, hv⟩]
  exact (single_self h hs hx hv).1

/-- For an object of a class derived from an owner they differ if the owned type can be constructed from it: with `=` the owner is copied or moved, with parentheses the object
is forwarded to the owned type. -/
theorem C91_derived_differs {t : Types B} {f : Facts B K} (ha : t.allocDefault = true) {x : Arg B} (hx : x.ty ≠ t.self) (hd : t.fromSelf x.ty = true)
    (hv : x.isVolatile = false) (hi : x.ty ≠ t.inPlace) (hc : t.constructible (deduce x) = true) :
    copyInit .indirect20 t x = some (Spec.Conversions.copyOrMove x) ∧ select .indirect20 t f [.one x] = some .fwd ∧ copyList .indirect20 t f [.one x] = none := by
  have e : select .indirect20 t f [.one x] = some .fwd := by
    simp only [select, single, C49_derived_is_forwarded ha hx hd hi hc, Option.map_some, plain]
  exact ⟨C91_copy_init_how _ t x ⟨.inr hd, hv⟩, e, by simp [copyList, e, isExplicit]⟩

/-! ### Braces -/

/-- Owners in braces, alone or behind an allocator, are accepted by all four headers, and copied or moved. -/
theorem C91_braces_owners (h : Header) {t : Types B} {f : Facts B K} (hs : Separate t f) {x : Arg B} (hx : x.ty = t.self) (hv : x.isVolatile = false) :
    copyList h t f [.one x] = some (plain (Spec.Conversions.copyOrMove x)) ∧
    ∀ (i : Arg B) (a : In B K), i.ty = f.allocArg → i.isVolatile = false → f.toAlloc a = true →
      copyList h t f [.one i, a, .one x] = some (extended (Spec.Conversions.copyOrMove x)) := by
  obtain ⟨h1, h2⟩ := single_self h hs hx hv
  have n1 : isExplicit h (plain (Spec.Conversions.copyOrMove x)) = false := by
    unfold Spec.Conversions.copyOrMove
    split <;> cases h <;> rfl
  have n2 : isExplicit h (extended (Spec.Conversions.copyOrMove x)) = false := by
    unfold Spec.Conversions.copyOrMove
    split <;> cases h <;> rfl
  constructor
  · simp [copyList, select, h1, n1]
  · intro i a hi hw ha
    simp [copyList, select, isA, hi, hw, ha, afterAlloc, h2, n2]

private theorem tagged_cases {f : Facts B K} {is : List (In B K)} {c : Ctor} (h : tagged f is = some c) : c = .inPlaceList ∨ c = .inPlace := by
  unfold tagged at h
  split at h
  · exact .inl (Option.some.inj h).symm
  · split at h
    · exact .inr (Option.some.inj h).symm
    · cases h

private theorem aTagged_cases {h : Header} {f : Facts B K} {is : List (In B K)} {c : Ctor} (hc : aTagged h f is = some c) : c = .aInPlaceList ∨ c = .aInPlace := by
  unfold aTagged at hc
  split at hc
  · exact .inl (Option.some.inj hc).symm
  · split at hc
    · exact .inr (Option.some.inj hc).symm
    · split at hc
      · split at hc
        · exact .inr (Option.some.inj hc).symm
        · cases hc
      · cases hc

private theorem map_plain {t : Types B} {a b : Bool} {x : Arg B} {c : Ctor} (h : (Overload.select t a b x).map plain = some c) :
    (IsOwner t x ∧ c = plain (Spec.Conversions.copyOrMove x)) ∨ c = .fwd ∨ c = .inPlace := by
  rw [Option.map_eq_some_iff] at h
  obtain ⟨g, hg, rfl⟩ := h
  cases g with
  | copy => exact .inl ((select_owner hg (.inl rfl)).imp id (congrArg plain))
  | move => exact .inl ((select_owner hg (.inr rfl)).imp id (congrArg plain))
  | forward => exact .inr (.inl rfl)
  | inPlace => exact .inr (.inr rfl)

private theorem map_extended {t : Types B} {a b : Bool} {x : Arg B} {c : Ctor} (h : (Overload.select t a b x).map extended = some c) :
    (IsOwner t x ∧ c = extended (Spec.Conversions.copyOrMove x)) ∨ c = .aFwd ∨ c = .aInPlace := by
  rw [Option.map_eq_some_iff] at h
  obtain ⟨g, hg, rfl⟩ := h
  cases g with
  | copy => exact .inl ((select_owner hg (.inl rfl)).imp id (congrArg extended))
  | move => exact .inl ((select_owner hg (.inr rfl)).imp id (congrArg extended))
  | forward => exact .inr (.inl rfl)
  | inPlace => exact .inr (.inr rfl)

private theorem single_cases {h : Header} {t : Types B} {f : Facts B K} {x : Arg B} {c : Ctor} (hc : single h t f x = some c) :
    (IsOwner t x ∧ c = plain (Spec.Conversions.copyOrMove x)) ∨ c = .fwd ∨ c = .inPlace := by
  have tag : ∀ {b : Bool}, (if b then tagged f [] else none) = some c → c = .inPlace := by
    intro b hb
    cases b with
    | false => cases hb
    | true =>
      simp only [tagged, listOk, Bool.false_eq_true, if_false, if_true] at hb
      split at hb
      · exact (Option.some.inj hb).symm
      · cases hb
  cases h with
  | indirect20 => exact map_plain hc
  | indirect14 => exact map_plain hc
  | polymorphic20 =>
    unfold single at hc
    simp only at hc
    split at hc
    · exact .inr (.inr (tag hc))
    · exact map_plain hc
  | polymorphic14 =>
    unfold single at hc
    simp only at hc
    split at hc
    · exact .inr (.inr (tag hc))
    · exact map_plain hc

private theorem aSingle_cases {h : Header} {t : Types B} {f : Facts B K} {x : Arg B} {c : Ctor} (hc : aSingle h t f x = some c) :
    (IsOwner t x ∧ c = extended (Spec.Conversions.copyOrMove x)) ∨ c = .aFwd ∨ c = .aInPlace ∨ c = .aInPlaceList := by
  have wk : ∀ {p q r s : Prop}, p ∨ q ∨ r → p ∨ q ∨ r ∨ s := fun h => h.imp id (Or.imp id .inl)
  cases h with
  | indirect20 => exact wk (map_extended hc)
  | indirect14 => exact wk (map_extended hc)
  | polymorphic20 =>
    unfold aSingle at hc
    simp only at hc
    split at hc
    · exact .inr (.inr (aTagged_cases hc).symm)
    · exact wk (map_extended hc)
  | polymorphic14 =>
    unfold aSingle at hc
    simp only at hc
    split at hc
    · exact .inr (.inr (aTagged_cases hc).symm)
    · exact wk (map_extended hc)

/-- What is selected: a constructor from an owner if there is one in the braces, and another one otherwise. -/
private theorem select_cases {h : Header} {t : Types B} {f : Facts B K} {is : List (In B K)} {c : Ctor} (hc : select h t f is = some c) :
    (∃ x, Owners t f is x ∧ (c = plain (Spec.Conversions.copyOrMove x) ∨ c = extended (Spec.Conversions.copyOrMove x))) ∨
    (c = .dflt ∧ is = []) ∨ c = .fwd ∨ c = .aFwd ∨ c = .inPlace ∨
    ((c = .aDflt ∨ c = .aInPlace ∨ c = .aInPlaceList) ∧ ∃ i a js, is = .one i :: a :: js ∧ i.ty = f.allocArg) ∨
    (c = .inPlaceList ∧ ∃ i js, is = .one i :: js ∧ f.isTag i.ty = true) := by
  unfold select at hc
  split at hc
  · split at hc
    · exact .inr (.inl ⟨(Option.some.inj hc).symm, rfl⟩)
    · cases hc
  · rcases single_cases hc with ⟨ho, rfl⟩ | rfl | rfl
    · exact .inl ⟨_, .plain _ ho, .inl rfl⟩
    · simp
    · simp
  · split at hc
    · cases hc; simp
    · cases hc
  · rename_i i j is
    split at hc
    · rename_i hi
      split at hc
      · rename_i ha
        cases i with
        | braces k => simp [isA] at hi
        | one i =>
        simp only [isA, Bool.and_eq_true, beq_iff_eq, Bool.not_eq_true'] at hi
        have shape : ∃ i' a js, In.one i :: j :: is = .one i' :: a :: js ∧ i'.ty = f.allocArg := ⟨i, j, is, rfl, hi.1⟩
        unfold afterAlloc at hc
        split at hc
        · split at hc
          · cases hc; simp [hi.1]
          · cases hc
        · rcases aSingle_cases hc with ⟨ho, rfl⟩ | rfl | rfl | rfl
          · exact .inl ⟨_, .extended _ _ _ hi.1 hi.2 ha ho, .inr rfl⟩
          · simp
          · simp [hi.1]
          · simp [hi.1]
        · split at hc
          · cases hc; simp
          · cases hc
        · split at hc
          · rcases aTagged_cases hc with rfl | rfl <;> simp [hi.1]
          · cases hc
      · cases hc
    · split at hc
      · rename_i ht
        cases i with
        | braces k => simp [isA] at ht
        | one i =>
        simp only [isA, Bool.and_eq_true] at ht
        rcases tagged_cases hc with rfl | rfl
        · simp [ht.1.1]
        · simp
      · cases hc

private theorem copyList_select {h : Header} {t : Types B} {f : Facts B K} {is : List (In B K)} {c : Ctor} (hc : copyList h t f is = some c) :
    select h t f is = some c ∧ isExplicit h c = false := by
  unfold copyList at hc
  rw [Option.filter_eq_some_iff] at hc
  exact ⟨hc.1, by simpa using hc.2⟩

/-- **C91**, C++20 headers: braces make an owner implicitly only if there is an owner in them, alone or behind an allocator, and it is copied or moved. -/
theorem C91_braces_only_owners {h : Header} (hh : Modern h) {t : Types B} {f : Facts B K} {is : List (In B K)} {c : Ctor} (hc : copyList h t f is = some c) :
    ∃ x, Owners t f is x ∧ (c = plain (Spec.Conversions.copyOrMove x) ∨ c = extended (Spec.Conversions.copyOrMove x)) := by
  obtain ⟨h1, h2⟩ := copyList_select hc
  rcases select_cases h1 with ho | ⟨rfl, _⟩ | rfl | rfl | rfl | ⟨rfl | rfl | rfl, _⟩ | ⟨rfl, _⟩
  · exact ho
  all_goals (cases h <;> first | (cases hh; done) | (cases h2; done))

/-- A single expression in braces is accepted only if it is an owner, by all four headers. -/
theorem C91_braces_single (h : Header) {t : Types B} {f : Facts B K} {x : Arg B} {c : Ctor} (hc : copyList h t f [.one x] = some c) :
    IsOwner t x ∧ c = plain (Spec.Conversions.copyOrMove x) := by
  obtain ⟨h1, h2⟩ := copyList_select hc
  rcases single_cases h1 with ho | rfl | rfl
  · exact ho
  all_goals (cases h <;> (cases h2; done))

/-- The C++14 headers, all that is accepted: owners, empty braces, and braces that begin with `std::allocator_arg`, and those of `indirect` that begin with a tag and an
`initializer_list`.  The second to fourth should not be. -/
theorem C91_braces_cxx14_partial {h : Header} (hh : ¬ Modern h) {t : Types B} {f : Facts B K} {is : List (In B K)} {c : Ctor} (hc : copyList h t f is = some c) :
    (∃ x, Owners t f is x ∧ (c = plain (Spec.Conversions.copyOrMove x) ∨ c = extended (Spec.Conversions.copyOrMove x))) ∨
    (c = .dflt ∧ is = []) ∨
    ((c = .aDflt ∨ c = .aInPlace ∨ c = .aInPlaceList) ∧ ∃ i a js, is = .one i :: a :: js ∧ i.ty = f.allocArg) ∨
    (c = .inPlaceList ∧ h = .indirect14 ∧ ∃ i js, is = .one i :: js ∧ f.isTag i.ty = true) := by
  obtain ⟨h1, h2⟩ := copyList_select hc
  rcases select_cases h1 with ho | ho | rfl | rfl | rfl | ho | ho
  · exact .inl ho
  · exact .inr (.inl ho)
  · cases h <;> (cases h2; done)
  · cases h <;> (cases h2; done)
  · cases h <;> (cases h2; done)
  · exact .inr (.inr (.inl ho))
  · obtain ⟨rfl, hr⟩ := ho
    refine .inr (.inr (.inr ⟨rfl, ?_, hr⟩))
    cases h with
    | indirect14 => rfl
    | indirect20 => cases h2
    | polymorphic20 => cases h2
    | polymorphic14 => cases h2

/-- What C91 says is false of the C++14 headers: `owner y = {};` makes an object of the owned type whenever that is possible, as does `owner y = {std::allocator_arg, a};`. -/
theorem C91_violation_cxx14_empty {h : Header} (hh : ¬ Modern h) {t : Types B} {f : Facts B K} (hd : t.defaultConstructible = true) (ha : t.allocDefault = true) :
    copyList h t f ([] : List (In B K)) = some .dflt ∧
    ∀ (i : Arg B) (a : In B K), i.ty = f.allocArg → i.isVolatile = false → f.toAlloc a = true → copyList h t f [.one i, a] = some .aDflt := by
  cases h with
  | indirect20 => exact absurd trivial hh
  | polymorphic20 => exact absurd trivial hh
  | indirect14 =>
    refine ⟨by simp [copyList, select, dfltOk, ha, isExplicit], fun i a hi hv hw => ?_⟩
    simp [copyList, select, isA, hi, hv, hw, afterAlloc, aDfltOk, isExplicit]
  | polymorphic14 =>
    refine ⟨by simp [copyList, select, dfltOk, ha, hd, isExplicit], fun i a hi hv hw => ?_⟩
    simp [copyList, select, isA, hi, hv, hw, afterAlloc, aDfltOk, hd, isExplicit]

/-- And `owner y = {std::allocator_arg, a, tag, xs...};`, from arbitrary arguments. -/
theorem C91_violation_cxx14_in_place {h : Header} (hh : ¬ Modern h) {t : Types B} {f : Facts B K} {i : Arg B} {a : In B K} {g : Arg B} {js : List (In B K)}
    (hi : i.ty = f.allocArg) (hv : i.isVolatile = false) (ha : f.toAlloc a = true) (hg : f.isTag g.ty = true) (hw : g.isVolatile = false) (hj : js ≠ [])
    (hm : packOk f js = true) : ∃ c, copyList h t f (.one i :: a :: .one g :: js) = some c ∧ (c = .aInPlace ∨ c = .aInPlaceList) := by
  cases js with
  | nil => exact absurd rfl hj
  | cons j js =>
    have e : select h t f (.one i :: a :: .one g :: j :: js) = aTagged h f (j :: js) := by
      simp [select, isA, hi, hv, ha, afterAlloc, hg, hw]
    have e2 : ∃ c, aTagged h f (j :: js) = some c := by
      unfold aTagged
      by_cases hl : listOk f (j :: js) = true
      · exact ⟨_, if_pos hl⟩
      · rw [if_neg hl, if_pos hm]
        exact ⟨_, rfl⟩
    obtain ⟨c, e2⟩ := e2
    have hc := aTagged_cases e2
    refine ⟨c, ?_, hc.symm⟩
    unfold copyList
    rw [e, e2]
    rcases hc with rfl | rfl <;> cases h <;> first | rfl | exact absurd trivial hh

/-- And `indirect<T> y = {xyz::in_place_t{}, {xs...}, ys...};` of indirect_cxx14.h; polymorphic_cxx14.h rejects it. -/
theorem C91_violation_cxx14_list {t : Types B} {f : Facts B K} {g : Arg B} {j : In B K} {js : List (In B K)} (hg : f.isTag g.ty = true) (hw : g.isVolatile = false)
    (hn : g.ty ≠ f.allocArg) (ha : t.allocDefault = true) (hl : listOk f (j :: js) = true) :
    copyList .indirect14 t f (.one g :: j :: js) = some .inPlaceList ∧ copyList .polymorphic14 t f (.one g :: j :: js) = none := by
  have e : ∀ h, select h t f (.one g :: j :: js) = some .inPlaceList := by
    intro h
    simp [select, isA, hg, hw, hn, ha, tagged, hl]
  simp [copyList, e, isExplicit]

/-! ### Assignment from braces -/

/-- C++20 headers: `y = {xs...}` compiles only if there is an owner in the braces.  A single owner is copied or moved from; with an allocator, an owner is made and moved from. -/
theorem C91_assign_braces {h : Header} (hh : Modern h) {t : Types B} {f : Facts B K} {is : List (In B K)} {g : Fn} (hg : assignList h t f is = some g) :
    ∃ x, Owners t f is x ∧ (is = [.one x] → g = Spec.Conversions.copyOrMove x) := by
  have other : ∀ {js : List (In B K)}, ((copyList h t f js).map fun _ => Fn.move) = some g → ∃ x, Owners t f js x := by
    intro js hjs
    rw [Option.map_eq_some_iff] at hjs
    obtain ⟨c, hc, _⟩ := hjs
    obtain ⟨x, ho, _⟩ := C91_braces_only_owners hh hc
    exact ⟨x, ho⟩
  unfold assignList at hg
  split at hg
  · rename_i x
    by_cases ho : IsOwner t x
    · rw [if_pos ho.1, (select_none t x).1 ho] at hg
      exact ⟨x, .plain x ho, fun _ => (Option.some.inj hg).symm⟩
    · exfalso
      split at hg
      · rw [(select_none t x).2 ho] at hg
        cases hg
      · obtain ⟨y, hy⟩ := other hg
        cases hy
        exact ho (by assumption)
  · rename_i hne
    obtain ⟨x, ho⟩ := other hg
    exact ⟨x, ho, fun e => absurd e (hne x)⟩

/-- So no `T` is ever assigned from braces: not from empty ones and not from braces around others.  The draft declares `template <class U = T> indirect& operator=(U&&)`, by which it would;
the headers have no default. -/
theorem C91_violation_assign_braces {h : Header} (hh : Modern h) (t : Types B) (f : Facts B K) (k : K) :
    assignList h t f [] = none ∧ assignList h t f [.braces k] = none := by
  constructor
  · cases e : assignList h t f [] with
    | none => rfl
    | some g =>
      obtain ⟨x, ho, _⟩ := C91_assign_braces hh e
      cases ho
  · cases e : assignList h t f [.braces k] with
    | none => rfl
    | some g =>
      obtain ⟨x, ho, _⟩ := C91_assign_braces hh e
      cases ho

/-- In the C++14 headers `y = {}` makes an owner with a new allocator and moves it to `y`. -/
theorem C91_assign_braces_cxx14 {h : Header} (hh : ¬ Modern h) {t : Types B} {f : Facts B K} (hd : t.defaultConstructible = true) (ha : t.allocDefault = true) :
    assignList h t f ([] : List (In B K)) = some .move := by
  show (copyList h t f []).map _ = _
  rw [(C91_violation_cxx14_empty hh hd ha).1]
  rfl

end

/-! ### Braces for the owned object -/

section
variable {B K : Type} [DecidableEq B]

/-- indirect.h: `indirect<T> y({xs...})` makes the owned object from the braces whenever that is possible, also with an allocator and behind the tag. -/
theorem C91_braces_value (t : Types B) {f : Facts B K} {k : K} (hk : f.toOwned k = true) (ha : t.allocDefault = true) :
    select .indirect20 t f [.braces k] = some .fwd ∧
    ∀ (i : Arg B) (a : In B K), i.ty = f.allocArg → i.isVolatile = false → f.toAlloc a = true →
      select .indirect20 t f [.one i, a, .braces k] = some .aFwd ∧
      ∀ g : Arg B, f.isTag g.ty = true → g.isVolatile = false →
        ∃ c, select .indirect20 t f [.one i, a, .one g, .braces k] = some c ∧ (c = .aInPlace ∨ c = .aInPlaceList) := by
  refine ⟨by simp [select, hk, ha], fun i a hi hv hw => ⟨by simp [select, isA, hi, hv, hw, afterAlloc, hk], fun g hg hu => ?_⟩⟩
  simp only [select, isA, hi, hv, hw, afterAlloc, hg, hu, beq_self_eq_true, Bool.not_false, Bool.and_self, if_true, aTagged]
  split
  · exact ⟨_, rfl, .inr rfl⟩
  · split
    · exact ⟨_, rfl, .inl rfl⟩
    · exact ⟨_, rfl, .inl rfl⟩

/-- The draft declares `template <class U = T> explicit polymorphic(U&&)` as well; polymorphic.h has no default, nor have the C++14 headers, and `({xs...})` is rejected. -/
theorem C91_violation_braces_value {h : Header} (hh : h ≠ .indirect20) (t : Types B) (f : Facts B K) (k : K) :
    select h t f [.braces k] = none ∧ ∀ (i : Arg B) (a : In B K), i.ty = f.allocArg → i.isVolatile = false → select h t f [.one i, a, .braces k] = none := by
  refine ⟨by simp [select, hh], fun i a hi hv => ?_⟩
  simp [select, isA, hi, hv, afterAlloc, hh]

end

/-! ### Examples -/

namespace ExplicitDemo

/-- `indirect<string>` (0), `string` (1), the tag (2), `allocator_arg` (3), `allocator<string>` (4), `const char*` (5), a class derived from the owner (6), `char` (7). -/
def types : Types Nat where
  self := 0
  owned := 1
  inPlace := 2
  fromSelf b := b == 6
  fromOwned b := b == 1
  constructible u := u.ty == 1 || u.ty == 5 || u.ty == 6
  assignable u := u.ty == 1 || u.ty == 5
  copyable b := b == 1
  defaultConstructible := true
  allocDefault := true

/-- Braces are `{}` (`false`) or a list of characters (`true`). -/
def facts : Facts Nat Bool where
  allocArg := 3
  isTag b := b == 2
  toAlloc
    | .one x => x.ty == 4
    | .braces k => !k
  elem
    | .one _ => none
    | .braces k => if k then some 7 else none
  toOwned _ := true
  makes
    | some b, is => b == 7 && is.isEmpty
    | none, [] => true
    | none, [.one x] => x.ty == 1 || x.ty == 5
    | none, _ => false

def lv (b : Nat) : Arg Nat := ⟨b, false, false, true⟩
def rv (b : Nat) : Arg Nat := ⟨b, false, false, false⟩

example : Separate types facts := ⟨by decide, by decide, by decide⟩

/-- `return y;` and `return std::string();` -/
example : copyInit .indirect20 types (lv 0) = some .copy ∧ copyInit .indirect20 types (rv 0) = some .move ∧ copyInit .indirect20 types (rv 1) = none ∧
    copyInit .indirect20 types (rv 2) = none ∧ copyInit .indirect20 types (lv 6) = some .copy := by decide

/-- With parentheses the string is accepted. -/
example : select .indirect20 types facts [.one (rv 1)] = some .fwd ∧ select .indirect20 types facts [.braces true] = some .fwd ∧
    select .indirect20 types facts [.one (lv 6)] = some .fwd ∧ select .indirect20 types facts [.one (rv 2)] = some .inPlace := by decide

/-- A list of characters behind an allocator, and behind a tag. -/
example : facts.toOwned true = true ∧ select .indirect20 types facts [.one (rv 3), .one (lv 4), .braces true] = some .aFwd ∧
    select .indirect20 types facts [.one (rv 3), .one (lv 4), .one (rv 2), .braces false] = some .aInPlace ∧
    select .polymorphic20 types facts [.braces true] = none := by decide

/-- Braces, C++20. -/
example : copyList .indirect20 types facts [.one (lv 0)] = some .copy ∧ copyList .indirect20 types facts [.one (rv 3), .one (lv 4), .one (rv 0)] = some .aMove ∧
    copyList .indirect20 types facts [] = none ∧ copyList .indirect20 types facts [.one (rv 3), .braces false] = none ∧
    copyList .indirect20 types facts [.one (rv 3), .one (lv 4), .one (rv 2), .one (rv 5)] = none ∧
    copyList .indirect20 types facts [.one (rv 2), .braces true] = none ∧ copyList .indirect20 types facts [.one (rv 5)] = none := by decide

/-- And C++14. -/
example : copyList .indirect14 types facts [] = some .dflt ∧ copyList .indirect14 types facts [.one (rv 3), .braces false] = some .aDflt ∧
    copyList .indirect14 types facts [.one (rv 3), .one (lv 4), .one (rv 2), .one (rv 5)] = some .aInPlace ∧
    copyList .indirect14 types facts [.one (rv 3), .one (lv 4), .one (rv 2)] = some .aInPlace ∧
    copyList .indirect14 types facts [.one (rv 2), .braces true] = some .inPlaceList ∧ copyList .indirect14 types facts [.one (rv 1)] = none ∧
    copyList .indirect14 types facts [.one (rv 2), .one (rv 5)] = none := by decide

/-- Assignment: `y = {z}`, `y = {"s"}`, `y = {}`. -/
example : assignList .indirect20 types facts [.one (rv 0)] = some .move ∧ assignList .indirect20 types facts [.one (lv 0)] = some .copy ∧
    assignList .indirect20 types facts [.one (rv 5)] = none ∧ assignList .indirect20 types facts [] = none ∧
    assignList .indirect14 types facts [] = some .move ∧ assignList .polymorphic14 types facts [] = some .move := by decide

/-- The hypotheses of the theorems about C++14 can be met. -/
example : ¬ Modern .indirect14 ∧ ¬ Modern .polymorphic14 ∧ packOk facts [.one (rv 5)] = true ∧ listOk facts [.braces true] = true := by
  refine ⟨id, id, by decide, by decide⟩

end ExplicitDemo
end Verif.Props
