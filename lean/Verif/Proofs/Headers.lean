import Verif.Spec.Headers

/-!
# Lemmas for the headers
-/

set_option autoImplicit false
set_option linter.unusedSimpArgs false

namespace Verif.Headers
open Verif.Spec

/-- How often `n` is defined. -/
def cnt (n : Name) : List Ev → Nat
  | [] => 0
  | .defn k _ :: l => (if k = n then 1 else 0) + cnt n l
  | _ :: l => cnt n l

theorem cnt_append (n : Name) (a b : List Ev) : cnt n (a ++ b) = cnt n a + cnt n b := by
  induction a with
  | nil => simp [cnt]
  | cons x a ih => cases x <;> simp [cnt, ih, Nat.add_assoc]

theorem cnt_pos {n : Name} {l : List Ev} (h : cnt n l ≠ 0) : ∃ v, Ev.defn n v ∈ l := by
  induction l with
  | nil => simp [cnt] at h
  | cons x l ih =>
    cases x with
    | defn k v =>
      by_cases e : k = n
      · exact ⟨v, by simp [e]⟩
      · obtain ⟨w, hw⟩ := ih (by simpa [cnt, e] using h)
        exact ⟨w, by simp [hw]⟩
    | _ =>
      obtain ⟨w, hw⟩ := ih (by simpa [cnt] using h)
      exact ⟨w, by simp [hw]⟩

theorem definedOnce_of_cnt {l : List Ev} (h : ∀ n, cnt n l ≤ 1) : DefinedOnce l := by
  intro n v v' a b c e
  have := h n
  rw [e] at this
  simp [cnt_append, cnt] at this
  omega

/-- `Declared` only looks at the content. -/
theorem declared_mono {l l' : List Ev} {n : Name} (h : ∀ e, e ∈ l → e ∈ l') : Declared l n → Declared l' n := by
  cases n <;> simp only [Declared] <;> first | exact h _ | (rintro ⟨v, hv⟩; exact ⟨v, h _ hv⟩)

/-- Uses in `new` find their names in `l` or before them in `new`. -/
def good (P : Name → Prop) : List Ev → List Ev → Prop
  | _, [] => True
  | l, .use n :: r => (P n → Declared l n) ∧ good P (l ++ [.use n]) r
  | l, e :: r => good P (l ++ [e]) r

theorem good_append (P : Name → Prop) (a b : List Ev) : ∀ l, good P l a → good P (l ++ a) b → good P l (a ++ b) := by
  induction a with
  | nil => intro l _ h; simpa using h
  | cons x a ih =>
    intro l ha hb
    cases x with
    | use n => exact ⟨ha.1, ih _ ha.2 (by simpa using hb)⟩
    | _ => exact ih _ ha (by simpa using hb)

theorem good_before {P : Name → Prop} (r : List Ev) : ∀ l, good P l r → ∀ n a b, P n → r = a ++ .use n :: b → Declared (l ++ a) n := by
  induction r with
  | nil => intro l _ n a b _ e; simp at e
  | cons x r ih =>
    intro l h n a b hp e
    cases a with
    | nil =>
      simp only [List.nil_append, List.cons.injEq] at e
      obtain ⟨rfl, rfl⟩ := e
      simpa using h.1 hp
    | cons y a =>
      simp only [List.cons_append, List.cons.injEq] at e
      obtain ⟨rfl, e⟩ := e
      have h' : good P (l ++ [x]) r := by cases x <;> first | exact h.2 | exact h
      have := ih _ h' n a b hp e
      simpa using this

/-- The macros that feature_check.h defines. -/
def feature : Macro → Bool
  | .featureCheckH | .hasStdOptional | .hasStdInPlaceTypeT | .hasStdInPlaceT | .hasTemplateArgumentDeduction
  | .hasStdMemoryResource | .hasStdThreeWayComparison => true
  | _ => false

/-- What the macros of feature_check.h stand for. -/
def stands (cc : Compiler) : Macro → Bool
  | .hasStdOptional | .hasStdInPlaceTypeT | .hasStdInPlaceT | .hasTemplateArgumentDeduction => cxx17 cc
  | .hasStdMemoryResource =>
    cc.hasInclude && decide (201703 ≤ cc.cplusplus) && cc.hasMemoryResource && decide (201603 ≤ cc.libMemoryResource)
  | .hasStdThreeWayComparison => cxx20 cc
  | _ => true

/-- The macros of feature_check.h are defined together. -/
def Features (cc : Compiler) (m : Macros) : Prop :=
  ∀ k, feature k = true → m k = (m .featureCheckH && stands cc k)

/-- `#define k` if `b`. -/
def setIf (b : Bool) (m : Macros) (k : Macro) : Macros := fun x => if x = k then b || m x else m x

theorem cond_define (cc : Compiler) (c : Compiler → Bool) (k : Macro) (rest : Text) (m : Macros) :
    preprocess cc (.cond c (.define k .fin) rest) m = preprocess cc rest (setIf (c cc) m k) := by
  have f : setIf false m k = m := by funext x; by_cases q : x = k <;> simp [setIf, q]
  have t : setIf true m k = set m k := by funext x; by_cases q : x = k <;> simp [setIf, set, q]
  cases h : c cc <;> simp [preprocess, h, f, t]

theorem define_eq (cc : Compiler) (k : Macro) (rest : Text) (m : Macros) :
    preprocess cc (.define k rest) m = preprocess cc rest (set m k) := by
  simp [preprocess]

theorem ifdef_error (cc : Compiler) (k : Macro) (rest : Text) (m : Macros) (h : m k = false) :
    preprocess cc (.ifdef k (.error .fin) rest) m = preprocess cc rest m := by
  simp [preprocess, h]

theorem memory_resource (cc : Compiler) (c d e : Compiler → Bool) (k : Macro) (rest : Text) (m : Macros) :
    preprocess cc (.cond c (.cond d (.std .memoryResource (.cond e (.define k .fin) .fin)) .fin) rest) m =
      ((if c cc && d cc then [.std .memoryResource] else []) ++ (preprocess cc rest (setIf (c cc && d cc && e cc) m k)).1,
        (preprocess cc rest (setIf (c cc && d cc && e cc) m k)).2) := by
  have f : setIf false m k = m := by funext x; by_cases q : x = k <;> simp [setIf, q]
  have t : setIf true m k = set m k := by funext x; by_cases q : x = k <;> simp [setIf, set, q]
  cases h1 : c cc <;> cases h2 : d cc <;> cases h3 : e cc <;> simp [preprocess, h1, h2, h3, f, t]

theorem featureCheck_spec (cc : Compiler) (m : Macros) (h : Features cc m) :
    (∀ e ∈ (preprocess cc featureCheck m).1, e = .std .memoryResource) ∧
    (∀ k, feature k = false → (preprocess cc featureCheck m).2 k = m k) ∧
    (∀ k, feature k = true → (preprocess cc featureCheck m).2 k = stands cc k) := by
  cases g : m .featureCheckH with
  | true =>
    refine ⟨by simp [featureCheck, preprocess, g], by simp [featureCheck, preprocess, g], fun k hk => ?_⟩
    simpa [featureCheck, preprocess, g] using h k hk
  | false =>
    have f : ∀ k, feature k = true → m k = false := fun k hk => by simp [h k hk, g]
    have h1 := f .hasStdOptional rfl
    have h2 := f .hasStdInPlaceTypeT rfl
    have h3 := f .hasStdInPlaceT rfl
    have h4 := f .hasTemplateArgumentDeduction rfl
    have h5 := f .hasStdMemoryResource rfl
    have h6 := f .hasStdThreeWayComparison rfl
    have e : preprocess cc featureCheck m =
        ((if cc.hasInclude && (decide (201703 ≤ cc.cplusplus) && cc.hasMemoryResource) then [.std .memoryResource] else []),
         setIf (cxx20 cc) (setIf (cc.hasInclude && (decide (201703 ≤ cc.cplusplus) && cc.hasMemoryResource) &&
             decide (201603 ≤ cc.libMemoryResource))
           (setIf (cxx17 cc) (setIf (cxx17 cc) (setIf (cxx17 cc) (setIf (cxx17 cc) (set m .featureCheckH) .hasStdOptional)
             .hasStdInPlaceTypeT) .hasStdInPlaceT) .hasTemplateArgumentDeduction) .hasStdMemoryResource)
           .hasStdThreeWayComparison) := by
      unfold featureCheck
      rw [preprocess]
      simp only [g, Bool.false_eq_true, if_false]
      rw [define_eq, ifdef_error _ _ _ _ (by simp [set, h1]), cond_define, ifdef_error _ _ _ _ (by simp [set, setIf, h2]),
        cond_define, ifdef_error _ _ _ _ (by simp [set, setIf, h3]), cond_define, cond_define, memory_resource,
        ifdef_error _ _ _ _ (by simp [set, setIf, h6]), cond_define]
      simp [preprocess]
    rw [e]
    refine ⟨?_, ?_, ?_⟩
    · intro x hx
      split at hx <;> simp_all
    · intro k hk
      cases k <;> simp [feature] at hk <;> simp [set, setIf]
    · intro k hk
      cases k <;> simp [feature] at hk <;> simp [set, setIf, stands, h1, h2, h3, h4, h5, h6, Bool.and_assoc]

/-- Boolean as a number. -/
def one (b : Bool) : Nat := if b then 1 else 0

/-- What the guards guarantee. -/
structure Inv (cc : Compiler) (l : List Ev) (m : Macros) : Prop where
  noError : Ev.error ∉ l
  features : Features cc m
  inPlace : cnt .inPlace l = one (m .inPlaceDefined)
  inPlaceType : cnt .inPlaceType l = one (m .inPlaceTypeDefined)
  unreachable : cnt .unreachable l = one (m .unreachableDefined)
  emptyBase : cnt .emptyBase l = one (m .emptyBaseDefined)
  indirect : cnt .indirect l = one (m .indirectH)
  hash : cnt .hash l = one (m .indirectH)
  polymorphic : cnt .polymorphic l = one (m .polymorphicH)
  synthThreeWay : cnt .synthThreeWay l ≤ one (m .indirectH)
  isIndirectV : cnt .isIndirectV l ≤ one (m .indirectH)
  isIndirect : cnt .isIndirect l ≤ one (m .indirectH)
  guides : cnt .guides l ≤ one (m .indirectH)
  isHashable : cnt .isHashable l ≤ one (m .indirectH)
  std : ∀ f, cnt (.std f) l = 0

theorem Inv.start (cc : Compiler) : Inv cc [] noMacros := by
  constructor <;> simp [cnt, one, noMacros, Features]

theorem Inv.once {cc : Compiler} {l : List Ev} {m : Macros} (h : Inv cc l m) : DefinedOnce l := by
  have b : ∀ k, one (m k) ≤ 1 := fun k => by unfold one; split <;> omega
  refine definedOnce_of_cnt fun n => ?_
  cases n with
  | std f => rw [h.std]; omega
  | inPlace => rw [h.inPlace]; exact b _
  | inPlaceType => rw [h.inPlaceType]; exact b _
  | unreachable => rw [h.unreachable]; exact b _
  | emptyBase => rw [h.emptyBase]; exact b _
  | indirect => rw [h.indirect]; exact b _
  | hash => rw [h.hash]; exact b _
  | polymorphic => rw [h.polymorphic]; exact b _
  | synthThreeWay => exact Nat.le_trans h.synthThreeWay (b _)
  | isIndirectV => exact Nat.le_trans h.isIndirectV (b _)
  | isIndirect => exact Nat.le_trans h.isIndirect (b _)
  | guides => exact Nat.le_trans h.guides (b _)
  | isHashable => exact Nat.le_trans h.isHashable (b _)

theorem cnt_std (n : Name) {l : List Ev} (h : ∀ e ∈ l, e = .std .memoryResource) : cnt n l = 0 := by
  induction l with
  | nil => rfl
  | cons x l ih =>
    have := h x (by simp)
    subst this
    exact ih fun e he => h e (by simp [he])

theorem error_std {l : List Ev} (h : ∀ e ∈ l, e = .std .memoryResource) : Ev.error ∉ l := by
  intro he
  have := h _ he
  cases this

theorem good_std (P : Name → Prop) {l : List Ev} (h : ∀ e ∈ l, e = .std .memoryResource) : ∀ k, good P k l := by
  induction l with
  | nil => intro k; trivial
  | cons x l ih =>
    intro k
    have := h x (by simp)
    subst this
    exact ih (fun e he => h e (by simp [he])) _

theorem features_set {cc : Compiler} {m : Macros} (h : Features cc m) (k : Macro) (hk : feature k = false) :
    Features cc (set m k) := by
  intro j hj
  have a : j ≠ k := by rintro rfl; simp [hk] at hj
  have b : Macro.featureCheckH ≠ k := by rintro rfl; simp [feature] at hk
  simp [set, a, b, h j hj]

/-- After feature_check.h. -/
theorem features_after (cc : Compiler) (m : Macros) (h : Features cc m) : Features cc (preprocess cc featureCheck m).2 := by
  obtain ⟨_, _, c⟩ := featureCheck_spec cc m h
  intro k hk
  simp [c k hk, c .featureCheckH rfl, stands]

theorem declared_of_cnt {n : Name} {l : List Ev} (h : ∀ f, n ≠ .std f) (c : cnt n l = 1) : Declared l n := by
  have := cnt_pos (n := n) (l := l) (by omega)
  cases n <;> first | exact this | exact absurd rfl (h _)

/-- What a translation unit has included of the standard library, where headers forget to. -/
def Supplied (P : Name → Prop) (l : List Ev) : Prop :=
  (P (.std .typeTraits) → .std .typeTraits ∈ l) ∧ (P (.std .cstddef) → .std .cstddef ∈ l)

theorem step_std (cc : Compiler) (f : Std) (l : List Ev) (m : Macros) (h : Inv cc l m) :
    Inv cc (l ++ (preprocess cc (text (.std f)) m).1) (preprocess cc (text (.std f)) m).2 := by
  obtain ⟨h1, h2, h3, h4, h5, h6, h7, h8, h9, h10, h11, h12, h13, h14, h15⟩ := h
  simp only [text, preprocess]
  constructor <;> simp_all [cnt_append, cnt]

theorem step_featureCheck (cc : Compiler) (l : List Ev) (m : Macros) (h : Inv cc l m) :
    Inv cc (l ++ (preprocess cc featureCheck m).1) (preprocess cc featureCheck m).2 := by
  obtain ⟨a, b, c⟩ := featureCheck_spec cc m h.features
  have f := features_after cc m h.features
  have e := error_std a
  have n := fun n => cnt_std n a
  obtain ⟨h1, h2, h3, h4, h5, h6, h7, h8, h9, h10, h11, h12, h13, h14, h15⟩ := h
  constructor <;> simp_all [cnt_append, feature]

/-- The text of `unreachable`. -/
def U (cc : Compiler) (m : Macros) : List Ev :=
  if m .unreachableDefined then [] else
    .defn .unreachable .same :: (if decide (202202 ≤ cc.libUnreachable) then [.use (.std .utility)] else [])

/-- The text of `empty_base_optimization`. -/
def B (m : Macros) : List Ev :=
  if m .emptyBaseDefined then [] else [.use (.std .typeTraits), .use (.std .utility), .defn .emptyBase .same]

/-- The text of a guarded definition. -/
def D (m : Macros) (k : Macro) (n : Name) (v : Version) : List Ev := if m k then [] else [.defn n v]

theorem set_of {m : Macros} {k : Macro} (h : m k = true) : set m k = m := by
  funext x
  by_cases q : x = k <;> simp [set, q, h]

theorem U_eq (cc : Compiler) (rest : Text) (m : Macros) : preprocess cc (unreachable rest) m =
    (U cc m ++ (preprocess cc rest (set m .unreachableDefined)).1, (preprocess cc rest (set m .unreachableDefined)).2) := by
  cases h : m .unreachableDefined
  · cases c : decide (202202 ≤ cc.libUnreachable) <;> simp only [unreachable, preprocess, U, h, c] <;> simp
  · simp [unreachable, preprocess, U, h, set_of h]

theorem B_eq (cc : Compiler) (rest : Text) (m : Macros) : preprocess cc (emptyBase rest) m =
    (B m ++ (preprocess cc rest (set m .emptyBaseDefined)).1, (preprocess cc rest (set m .emptyBaseDefined)).2) := by
  cases h : m .emptyBaseDefined
  · simp [emptyBase, preprocess, B, h]
  · simp [emptyBase, preprocess, B, h, set_of h]

theorem D_eq (cc : Compiler) (k : Macro) (n : Name) (v : Version) (rest : Text) (m : Macros) :
    preprocess cc (.ifndef k (.define k (.defn n v .fin)) rest) m =
      (D m k n v ++ (preprocess cc rest (set m k)).1, (preprocess cc rest (set m k)).2) := by
  cases h : m k
  · simp [preprocess, D, h]
  · simp [preprocess, D, h, set_of h]

theorem M_eq (cc : Compiler) (k : Macro) (rest : Text) (m : Macros) :
    preprocess cc (.ifndef k (.define k .fin) rest) m = preprocess cc rest (set m k) := by
  cases h : m k
  · simp [preprocess, h]
  · simp [preprocess, h, set_of h]

theorem cnt_U (cc : Compiler) (m : Macros) (n : Name) :
    cnt n (U cc m) = if .unreachable = n then one (!m .unreachableDefined) else 0 := by
  unfold U one
  cases m .unreachableDefined <;> cases decide (202202 ≤ cc.libUnreachable) <;> by_cases e : Name.unreachable = n <;> simp [cnt, e]

theorem cnt_B (m : Macros) (n : Name) : cnt n (B m) = if .emptyBase = n then one (!m .emptyBaseDefined) else 0 := by
  unfold B one
  cases m .emptyBaseDefined <;> by_cases e : Name.emptyBase = n <;> simp [cnt, e]

theorem cnt_D (m : Macros) (k : Macro) (n' n : Name) (v : Version) :
    cnt n (D m k n' v) = if n' = n then one (!m k) else 0 := by
  unfold D one
  cases m k <;> by_cases e : n' = n <;> simp [cnt, e]

theorem err_U (cc : Compiler) (m : Macros) : (Ev.error ∈ U cc m) = False := by
  unfold U
  cases m .unreachableDefined <;> cases decide (202202 ≤ cc.libUnreachable) <;> simp

theorem err_B (m : Macros) : (Ev.error ∈ B m) = False := by
  unfold B
  cases m .emptyBaseDefined <;> simp

theorem err_D (m : Macros) (k : Macro) (n : Name) (v : Version) : (Ev.error ∈ D m k n v) = False := by
  unfold D
  cases m k <;> simp

theorem one_not (b : Bool) : one b + one (!b) = 1 := by cases b <;> rfl

/-- indirect.h, the first time. -/
theorem indirect20_eq (cc : Compiler) (m : Macros) (g : m .indirectH = false) : preprocess cc indirect20 m =
    ([.std .cassert, .std .compare, .std .concepts, .std .initializerList, .std .memory, .std .typeTraits, .std .utility] ++
      (U cc m ++
      [.use (.std .concepts), .use (.std .compare), .use (.std .utility), .defn .synthThreeWay .cxx20, .defn .isIndirectV .cxx20,
       .use (.std .memory), .use (.std .utility), .use (.std .concepts), .use (.std .typeTraits), .use (.std .initializerList),
       .use (.std .compare), .use (.std .cassert), .use .unreachable, .use .isIndirectV, .use .synthThreeWay,
       .defn .indirect .cxx20, .defn .isHashable .cxx20, .use .indirect, .defn .guides .cxx20,
       .use .isHashable, .use .indirect, .use (.std .cstddef), .defn .hash .cxx20]),
     set (set m .indirectH) .unreachableDefined) := by
  have u : U cc (set m .indirectH) = U cc m := by simp [U, set]
  simp [indirect20, preprocess, g, U_eq, u]

/-- polymorphic.h, the first time. -/
theorem polymorphic20_eq (cc : Compiler) (m : Macros) (g : m .polymorphicH = false) : preprocess cc polymorphic20 m =
    ([.std .cassert, .std .concepts, .std .initializerList, .std .memory, .std .utility] ++
      (U cc m ++
      [.use (.std .memory), .use (.std .utility), .use (.std .concepts), .use (.std .typeTraits), .use (.std .initializerList),
       .use (.std .cassert), .use .unreachable, .defn .polymorphic .cxx20]),
     set (set (set m .polymorphicH) .hasExtendedConstructors) .unreachableDefined) := by
  rw [polymorphic20, preprocess]
  simp only [g, Bool.false_eq_true, if_false]
  rw [define_eq]
  simp only [preprocess.eq_7, M_eq, U_eq]
  simp [preprocess, U, set]

/-- polymorphic_cxx14.h, the first time. -/
theorem polymorphic14_eq (cc : Compiler) (m : Macros) (g : m .polymorphicH = false) : preprocess cc polymorphic14 m =
    ([.std .cassert, .std .initializerList, .std .memory, .std .typeTraits, .std .utility] ++
      (D m .inPlaceTypeDefined .inPlaceType .cxx14 ++ (U cc m ++ (B m ++
      [.use .emptyBase, .use (.std .memory), .use (.std .utility), .use (.std .typeTraits), .use (.std .initializerList),
       .use (.std .cassert), .use .inPlaceType, .use .unreachable, .defn .polymorphic .cxx14]))),
     set (set (set (set (set m .polymorphicH) .hasExtendedConstructors) .inPlaceTypeDefined) .unreachableDefined)
       .emptyBaseDefined) := by
  rw [polymorphic14, preprocess]
  simp only [g, Bool.false_eq_true, if_false]
  rw [define_eq]
  simp only [preprocess.eq_7, M_eq, D_eq, U_eq, B_eq]
  simp [preprocess, U, B, D, set]

/-- indirect_cxx14.h, the first time; `c` and `n` are what feature_check.h leaves. -/
theorem indirect14_eq (cc : Compiler) (m : Macros) (g : m .indirectH = false)  (h : Features cc m) :
    ∃ c n, (∀ e ∈ c, e = Ev.std .memoryResource) ∧ (∀ k, feature k = false → n k = set m .indirectH k) ∧ Features cc n ∧
      n .featureCheckH = true ∧
    preprocess cc indirect14 m =
    ([.std .cassert, .std .initializerList, .std .memory, .std .typeTraits, .std .utility] ++
      (c ++ (D m .inPlaceDefined .inPlace .cxx14 ++ (U cc m ++ (B m ++
      ([.defn .isIndirect .cxx14, .use .emptyBase, .use (.std .memory), .use (.std .utility), .use (.std .typeTraits),
       .use (.std .initializerList), .use (.std .cassert), .use .inPlace, .use .unreachable, .use .isIndirect,
       .defn .indirect .cxx14] ++ ((if cxx17 cc then [.use .indirect, .defn .guides .cxx14] else []) ++
       [.use .indirect, .use (.std .cstddef), .defn .hash .cxx14])))))),
     set (set (set n .inPlaceDefined) .unreachableDefined) .emptyBaseDefined) := by
  have f := features_set h .indirectH rfl
  obtain ⟨h1, h2, h3⟩ := featureCheck_spec cc _ f
  refine ⟨_, _, h1, h2, features_after cc _ f, h3 _ rfl, ?_⟩
  rw [indirect14, preprocess]
  simp only [g, Bool.false_eq_true, if_false]
  rw [define_eq]
  simp only [preprocess.eq_7, preprocess.eq_8, D_eq, U_eq, B_eq]
  have h4 := h3 .hasTemplateArgumentDeduction rfl
  have h5 := h2 .inPlaceDefined rfl
  have h6 := h2 .unreachableDefined rfl
  have h7 := h2 .emptyBaseDefined rfl
  generalize preprocess cc featureCheck (set m Macro.indirectH) = r at *
  cases q : cxx17 cc <;> simp_all [preprocess, U, B, D, set, stands]

theorem step_indirect20 (cc : Compiler) (l : List Ev) (m : Macros) (h : Inv cc l m) :
    Inv cc (l ++ (preprocess cc indirect20 m).1) (preprocess cc indirect20 m).2 := by
  cases g : m .indirectH with
  | true => simpa [indirect20, preprocess, g] using h
  | false =>
    have f := features_set (features_set h.features .indirectH rfl) .unreachableDefined rfl
    have u := one_not (m .unreachableDefined)
    obtain ⟨h1, h2, h3, h4, h5, h6, h7, h8, h9, h10, h11, h12, h13, h14, h15⟩ := h
    rw [indirect20_eq cc m g]
    rw [g] at h7 h8 h10 h11 h12 h13 h14
    constructor <;> simp_all [set, cnt_append, cnt, cnt_U, err_U] <;> simp_all [one]

theorem step_polymorphic20 (cc : Compiler) (l : List Ev) (m : Macros) (h : Inv cc l m) :
    Inv cc (l ++ (preprocess cc polymorphic20 m).1) (preprocess cc polymorphic20 m).2 := by
  cases g : m .polymorphicH with
  | true => simpa [polymorphic20, preprocess, g] using h
  | false =>
    have f := features_set (features_set (features_set h.features .polymorphicH rfl) .hasExtendedConstructors rfl)
      .unreachableDefined rfl
    have u := one_not (m .unreachableDefined)
    obtain ⟨h1, h2, h3, h4, h5, h6, h7, h8, h9, h10, h11, h12, h13, h14, h15⟩ := h
    rw [polymorphic20_eq cc m g]
    rw [g] at h9
    constructor <;> simp_all [set, cnt_append, cnt, cnt_U, err_U] <;> simp_all [one]

theorem step_polymorphic14 (cc : Compiler) (l : List Ev) (m : Macros) (h : Inv cc l m) :
    Inv cc (l ++ (preprocess cc polymorphic14 m).1) (preprocess cc polymorphic14 m).2 := by
  cases g : m .polymorphicH with
  | true => simpa [polymorphic14, preprocess, g] using h
  | false =>
    have f := features_set (features_set (features_set (features_set (features_set h.features .polymorphicH rfl)
      .hasExtendedConstructors rfl) .inPlaceTypeDefined rfl) .unreachableDefined rfl) .emptyBaseDefined rfl
    have u := one_not (m .unreachableDefined)
    have u' := one_not (m .emptyBaseDefined)
    have u'' := one_not (m .inPlaceTypeDefined)
    obtain ⟨h1, h2, h3, h4, h5, h6, h7, h8, h9, h10, h11, h12, h13, h14, h15⟩ := h
    rw [polymorphic14_eq cc m g]
    rw [g] at h9
    constructor <;> simp_all [set, cnt_append, cnt, cnt_U, err_U, cnt_B, err_B, cnt_D, err_D] <;> simp_all [one]

theorem step_indirect14 (cc : Compiler) (l : List Ev) (m : Macros) (h : Inv cc l m) :
    Inv cc (l ++ (preprocess cc indirect14 m).1) (preprocess cc indirect14 m).2 := by
  cases g : m .indirectH with
  | true => simpa [indirect14, preprocess, g] using h
  | false =>
    obtain ⟨c, n, hc, hn, hf, hg, e⟩ := indirect14_eq cc m g h.features
    have f := features_set (features_set (features_set hf .inPlaceDefined rfl) .unreachableDefined rfl) .emptyBaseDefined rfl
    have n0 := hn .indirectH rfl
    have n1 := hn .inPlaceTypeDefined rfl
    have n2 := hn .polymorphicH rfl
    have ce := error_std hc
    have cn := fun n => cnt_std n hc
    have u := one_not (m .unreachableDefined)
    have u' := one_not (m .emptyBaseDefined)
    have u'' := one_not (m .inPlaceDefined)
    obtain ⟨h1, h2, h3, h4, h5, h6, h7, h8, h9, h10, h11, h12, h13, h14, h15⟩ := h
    rw [e]
    rw [g] at h7 h8 h10 h11 h12 h13 h14
    clear hc hn hf hg e h2
    cases q : cxx17 cc <;> constructor <;>
      simp_all [set, cnt_append, cnt, cnt_U, err_U, cnt_B, err_B, cnt_D, err_D] <;> simp_all [one]

theorem step (cc : Compiler) (h : Header) (l : List Ev) (m : Macros) (i : Inv cc l m) :
    Inv cc (l ++ (preprocess cc (text h) m).1) (preprocess cc (text h) m).2 := by
  match h with
  | .std f => exact step_std cc f l m i
  | .featureCheck => exact step_featureCheck cc l m i
  | .indirect true => exact step_indirect20 cc l m i
  | .indirect false => exact step_indirect14 cc l m i
  | .polymorphic true => exact step_polymorphic20 cc l m i
  | .polymorphic false => exact step_polymorphic14 cc l m i

theorem steps (cc : Compiler) (hs : List Header) : ∀ (l : List Ev) (m : Macros), Inv cc l m →
    Inv cc (l ++ (preprocessAll cc hs m).1) (preprocessAll cc hs m).2 := by
  induction hs with
  | nil => intro l m i; simpa [preprocessAll] using i
  | cons h hs ih =>
    intro l m i
    have := ih _ _ (step cc h l m i)
    simpa [preprocessAll] using this

theorem inv (cc : Compiler) (hs : List Header) : Inv cc (translate cc hs) (macrosAfter cc hs) := by
  have := steps cc hs [] noMacros (Inv.start cc)
  simpa [translate, macrosAfter] using this

/-! ### Declared before use -/

theorem has_U {cc : Compiler} {l : List Ev} {m : Macros} (i : Inv cc l m) :
    (∃ v, Ev.defn .unreachable v ∈ l) ∨ Ev.defn .unreachable .same ∈ U cc m := by
  cases h : m .unreachableDefined
  · right; simp [U, h]
  · left; exact cnt_pos (by rw [i.unreachable, h]; decide)

theorem has_B {cc : Compiler} {l : List Ev} {m : Macros} (i : Inv cc l m) :
    (∃ v, Ev.defn .emptyBase v ∈ l) ∨ Ev.defn .emptyBase .same ∈ B m := by
  cases h : m .emptyBaseDefined
  · right; simp [B, h]
  · left; exact cnt_pos (by rw [i.emptyBase, h]; decide)

theorem has_I {cc : Compiler} {l : List Ev} {m : Macros} (i : Inv cc l m) :
    (∃ v, Ev.defn .inPlace v ∈ l) ∨ Ev.defn .inPlace .cxx14 ∈ D m .inPlaceDefined .inPlace .cxx14 := by
  cases h : m .inPlaceDefined
  · right; simp [D, h]
  · left; exact cnt_pos (by rw [i.inPlace, h]; decide)

theorem has_T {cc : Compiler} {l : List Ev} {m : Macros} (i : Inv cc l m) :
    (∃ v, Ev.defn .inPlaceType v ∈ l) ∨ Ev.defn .inPlaceType .cxx14 ∈ D m .inPlaceTypeDefined .inPlaceType .cxx14 := by
  cases h : m .inPlaceTypeDefined
  · right; simp [D, h]
  · left; exact cnt_pos (by rw [i.inPlaceType, h]; decide)

theorem good_U (P : Name → Prop) (cc : Compiler) (m : Macros) (l : List Ev) (h : .std .utility ∈ l) : good P l (U cc m) := by
  unfold U
  cases m .unreachableDefined <;> cases decide (202202 ≤ cc.libUnreachable) <;> simp [good, Declared, h]

theorem good_B (P : Name → Prop) (m : Macros) (l : List Ev) (h : .std .utility ∈ l) (h' : .std .typeTraits ∈ l) :
    good P l (B m) := by
  unfold B
  cases m .emptyBaseDefined <;> simp [good, Declared, h, h']

theorem good_D (P : Name → Prop) (m : Macros) (k : Macro) (n : Name) (v : Version) (l : List Ev) : good P l (D m k n v) := by
  unfold D
  cases m k <;> simp [good]

theorem good_step (P : Name → Prop) (cc : Compiler) (h : Header) (l : List Ev) (m : Macros) (i : Inv cc l m)
    (s : Supplied P l) : good P l (preprocess cc (text h) m).1 := by
  obtain ⟨s1, s2⟩ := s
  match h with
  | .std f => simp [text, preprocess, good]
  | .featureCheck => exact good_std P (featureCheck_spec cc m i.features).1 l
  | .indirect true =>
    cases g : m .indirectH with
    | true => simp [text, indirect20, preprocess, g, good]
    | false =>
      simp only [text]
      rw [indirect20_eq cc m g]
      refine good_append _ _ _ _ (by simp [good]) (good_append _ _ _ _ (good_U _ _ _ _ (by simp)) ?_)
      rcases has_U i with ⟨v, hv⟩ | hv <;> simp [good, Declared, exists_or, hv] <;> grind
  | .indirect false =>
    cases g : m .indirectH with
    | true => simp [text, indirect14, preprocess, g, good]
    | false =>
      simp only [text]
      obtain ⟨c, n, hc, hn, hf, hg, e⟩ := indirect14_eq cc m g i.features
      rw [e]
      refine good_append _ _ _ _ (by simp [good]) (good_append _ _ _ _ (good_std _ hc _) (good_append _ _ _ _ (good_D _ _ _ _ _ _)
        (good_append _ _ _ _ (good_U _ _ _ _ (by simp)) (good_append _ _ _ _ (good_B _ _ _ (by simp) (by simp))
          (good_append _ _ _ _ ?_ (good_append _ _ _ _ ?_ ?_))))))
      · rcases has_U i with ⟨v, hv⟩ | hv <;> rcases has_B i with ⟨v', hv'⟩ | hv' <;> rcases has_I i with ⟨w, hw⟩ | hw <;>
          simp [good, Declared, exists_or, hv, hv', hw] <;> grind
      · cases cxx17 cc <;> simp [good, Declared, exists_or]
      · simp [good, Declared, exists_or]
        grind
  | .polymorphic true =>
    cases g : m .polymorphicH with
    | true => simp [text, polymorphic20, preprocess, g, good]
    | false =>
      simp only [text]
      rw [polymorphic20_eq cc m g]
      refine good_append _ _ _ _ (by simp [good]) (good_append _ _ _ _ (good_U _ _ _ _ (by simp)) ?_)
      rcases has_U i with ⟨v, hv⟩ | hv <;> simp [good, Declared, exists_or, hv] <;> grind
  | .polymorphic false =>
    cases g : m .polymorphicH with
    | true => simp [text, polymorphic14, preprocess, g, good]
    | false =>
      simp only [text]
      rw [polymorphic14_eq cc m g]
      refine good_append _ _ _ _ (by simp [good]) (good_append _ _ _ _ (good_D _ _ _ _ _ _)
        (good_append _ _ _ _ (good_U _ _ _ _ (by simp)) (good_append _ _ _ _ (good_B _ _ _ (by simp) (by simp)) ?_)))
      rcases has_U i with ⟨v, hv⟩ | hv <;> rcases has_B i with ⟨v', hv'⟩ | hv' <;> rcases has_T i with ⟨w, hw⟩ | hw <;>
        simp [good, Declared, exists_or, hv, hv', hw] <;> grind

theorem good_steps (P : Name → Prop) (cc : Compiler) (hs : List Header) : ∀ (l : List Ev) (m : Macros), Inv cc l m →
    Supplied P l → good P l (preprocessAll cc hs m).1 := by
  induction hs with
  | nil => intro l m _ _; trivial
  | cons h hs ih =>
    intro l m i s
    exact good_append _ _ _ _ (good_step P cc h l m i s)
      (ih _ _ (step cc h l m i) ⟨fun p => by simp [s.1 p], fun p => by simp [s.2 p]⟩)

end Verif.Headers
