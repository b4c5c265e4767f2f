import Verif.Proofs.Headers

/-!
# Lemmas for the headers: which header defines what
-/

set_option autoImplicit false
set_option linter.unusedSimpArgs false

namespace Verif.Headers
open Verif.Spec

/-- What a header can define. -/
def defs : Header → List (Name × Version)
  | .std _ => []
  | .featureCheck => []
  | .indirect true => [(.unreachable, .same), (.synthThreeWay, .cxx20), (.isIndirectV, .cxx20), (.indirect, .cxx20),
      (.isHashable, .cxx20), (.guides, .cxx20), (.hash, .cxx20)]
  | .indirect false => [(.inPlace, .cxx14), (.unreachable, .same), (.emptyBase, .same), (.isIndirect, .cxx14),
      (.indirect, .cxx14), (.guides, .cxx14), (.hash, .cxx14)]
  | .polymorphic true => [(.unreachable, .same), (.polymorphic, .cxx20)]
  | .polymorphic false => [(.inPlaceType, .cxx14), (.unreachable, .same), (.emptyBase, .same), (.polymorphic, .cxx14)]

theorem mem_U {cc : Compiler} {m : Macros} {n : Name} {v : Version} (h : Ev.defn n v ∈ U cc m) : n = .unreachable ∧ v = .same := by
  unfold U at h
  cases m .unreachableDefined <;> cases decide (202202 ≤ cc.libUnreachable) <;> simp_all

theorem mem_B {m : Macros} {n : Name} {v : Version} (h : Ev.defn n v ∈ B m) : n = .emptyBase ∧ v = .same := by
  unfold B at h
  cases m .emptyBaseDefined <;> simp_all

theorem mem_D {m : Macros} {k : Macro} {n' n : Name} {v' v : Version} (h : Ev.defn n v ∈ D m k n' v') : n = n' ∧ v = v' := by
  unfold D at h
  cases m k <;> simp_all

theorem mem_C {c : List Ev} (hc : ∀ e ∈ c, e = .std .memoryResource) {n : Name} {v : Version} : ¬ Ev.defn n v ∈ c := by
  intro h
  have := hc _ h
  cases this

theorem defs_step (cc : Compiler) (h : Header) (m : Macros) (f : Features cc m) (n : Name) (v : Version)
    (d : Ev.defn n v ∈ (preprocess cc (text h) m).1) : (n, v) ∈ defs h := by
  match h with
  | .std f => simp [text, preprocess] at d
  | .featureCheck => exact absurd d (mem_C (featureCheck_spec cc m f).1)
  | .indirect true =>
    cases g : m .indirectH with
    | true => simp [text, indirect20, preprocess, g] at d
    | false =>
      simp only [text] at d
      rw [indirect20_eq cc m g] at d
      have := @mem_U cc m n v
      simp [defs] at d ⊢
      grind
  | .indirect false =>
    cases g : m .indirectH with
    | true => simp [text, indirect14, preprocess, g] at d
    | false =>
      simp only [text] at d
      obtain ⟨c, n', hc, hn, hf, hg, e⟩ := indirect14_eq cc m g f
      rw [e] at d
      have h1 := @mem_U cc m n v
      have h2 := @mem_B m n v
      have h3 := @mem_D m .inPlaceDefined .inPlace n .cxx14 v
      have h4 := @mem_C c hc n v
      clear e hc hn
      cases cxx17 cc <;> simp [defs] at d ⊢ <;> grind
  | .polymorphic true =>
    cases g : m .polymorphicH with
    | true => simp [text, polymorphic20, preprocess, g] at d
    | false =>
      simp only [text] at d
      rw [polymorphic20_eq cc m g] at d
      have := @mem_U cc m n v
      simp [defs] at d ⊢
      grind
  | .polymorphic false =>
    cases g : m .polymorphicH with
    | true => simp [text, polymorphic14, preprocess, g] at d
    | false =>
      simp only [text] at d
      rw [polymorphic14_eq cc m g] at d
      have h1 := @mem_U cc m n v
      have h2 := @mem_B m n v
      have h3 := @mem_D m .inPlaceTypeDefined .inPlaceType n .cxx14 v
      simp [defs] at d ⊢
      grind

theorem defs_steps (cc : Compiler) (n : Name) (v : Version) (hs : List Header) : ∀ (l : List Ev) (m : Macros), Inv cc l m →
    Ev.defn n v ∈ (preprocessAll cc hs m).1 → ∃ h ∈ hs, (n, v) ∈ defs h := by
  induction hs with
  | nil => intro l m _ d; simp [preprocessAll] at d
  | cons h hs ih =>
    intro l m i d
    simp only [preprocessAll, List.mem_append] at d
    rcases d with d | d
    · exact ⟨h, by simp, defs_step cc h m i.features n v d⟩
    · obtain ⟨k, hk, e⟩ := ih _ _ (step cc h l m i) d
      exact ⟨k, by simp [hk], e⟩

theorem defs_translate (cc : Compiler) (n : Name) (v : Version) (hs : List Header) (d : Ev.defn n v ∈ translate cc hs) :
    ∃ h ∈ hs, (n, v) ∈ defs h := defs_steps cc n v hs [] noMacros (Inv.start cc) d

theorem defs_agree {h h' : Header} {n : Name} {v v' : Version} (d : (n, v) ∈ defs h) (d' : (n, v') ∈ defs h')
    (t : twin h ≠ some h') : v = v' := by
  match h, h' with
  | .std _, _ => simp [defs] at d
  | .featureCheck, _ => simp [defs] at d
  | .indirect _, .std _ => simp [defs] at d'
  | .indirect _, .featureCheck => simp [defs] at d'
  | .polymorphic _, .std _ => simp [defs] at d'
  | .polymorphic _, .featureCheck => simp [defs] at d'
  | .indirect a, .indirect b => cases a <;> cases b <;> simp [twin] at t <;> simp [defs] at d d' <;> grind
  | .indirect a, .polymorphic b => cases a <;> cases b <;> simp [defs] at d d' <;> grind
  | .polymorphic a, .indirect b => cases a <;> cases b <;> simp [defs] at d d' <;> grind
  | .polymorphic a, .polymorphic b => cases a <;> cases b <;> simp [twin] at t <;> simp [defs] at d d' <;> grind

/-- The guard of a header. -/
def guard : Header → Option Macro
  | .indirect _ => some .indirectH
  | .polymorphic _ => some .polymorphicH
  | _ => none

/-- After the text of `h`, its guard is defined; other headers leave it alone. -/
theorem guard_step (cc : Compiler) (h : Header) (m : Macros) (f : Features cc m) (k : Macro)
    (hk : k = .indirectH ∨ k = .polymorphicH) :
    (preprocess cc (text h) m).2 k = (m k || decide (guard h = some k)) := by
  match h with
  | .std f => simp [text, preprocess, guard]
  | .featureCheck =>
    have := (featureCheck_spec cc m f).2.1 k (by rcases hk with rfl | rfl <;> rfl)
    simp [text, this, guard]
  | .indirect true =>
    cases g : m .indirectH with
    | true => rcases hk with rfl | rfl <;> simp [text, indirect20, preprocess, g, guard]
    | false =>
      simp only [text]
      rw [indirect20_eq cc m g]
      rcases hk with rfl | rfl <;> simp [set, guard]
  | .indirect false =>
    cases g : m .indirectH with
    | true => rcases hk with rfl | rfl <;> simp [text, indirect14, preprocess, g, guard]
    | false =>
      simp only [text]
      obtain ⟨c, n', hc, hn, hf, hg, e⟩ := indirect14_eq cc m g f
      rw [e]
      have h1 := hn .indirectH rfl
      have h2 := hn .polymorphicH rfl
      rcases hk with rfl | rfl <;> simp [set, guard, h1, h2]
  | .polymorphic true =>
    cases g : m .polymorphicH with
    | true => rcases hk with rfl | rfl <;> simp [text, polymorphic20, preprocess, g, guard]
    | false =>
      simp only [text]
      rw [polymorphic20_eq cc m g]
      rcases hk with rfl | rfl <;> simp [set, guard]
  | .polymorphic false =>
    cases g : m .polymorphicH with
    | true => rcases hk with rfl | rfl <;> simp [text, polymorphic14, preprocess, g, guard]
    | false =>
      simp only [text]
      rw [polymorphic14_eq cc m g]
      rcases hk with rfl | rfl <;> simp [set, guard]

/-- A header whose guard is not defined provides what it promises. -/
theorem provides_step (cc : Compiler) (h : Header) (l : List Ev) (m : Macros) (i : Inv cc l m)
    (g : ∀ k, guard h = some k → m k = false) : ∀ n ∈ provides h, Declared (l ++ (preprocess cc (text h) m).1) n := by
  match h with
  | .std f => simp [provides, text, preprocess, Declared]
  | .featureCheck => simp [provides]
  | .indirect true =>
    simp only [text]
    rw [indirect20_eq cc m (g _ rfl)]
    simp [provides, Declared, exists_or]
  | .indirect false =>
    simp only [text]
    obtain ⟨c, n', hc, hn, hf, hg, e⟩ := indirect14_eq cc m (g _ rfl) i.features
    rw [e]
    rcases has_I i with ⟨v, hv⟩ | hv
    · simp only [provides, Declared, List.mem_append, List.mem_cons, exists_or]
      simp
      exact Or.inl ⟨v, hv⟩
    · simp only [provides, Declared, List.mem_append, List.mem_cons, exists_or]
      simp
      grind
  | .polymorphic true =>
    simp only [text]
    rw [polymorphic20_eq cc m (g _ rfl)]
    simp [provides, Declared, exists_or]
  | .polymorphic false =>
    simp only [text]
    rw [polymorphic14_eq cc m (g _ rfl)]
    rcases has_T i with ⟨v, hv⟩ | hv
    · simp only [provides, Declared, List.mem_append, List.mem_cons, exists_or]
      simp
      exact Or.inl ⟨v, hv⟩
    · simp only [provides, Declared, List.mem_append, List.mem_cons, exists_or]
      simp
      grind

theorem preprocessAll_append (cc : Compiler) (a b : List Header) : ∀ m, preprocessAll cc (a ++ b) m =
    ((preprocessAll cc a m).1 ++ (preprocessAll cc b (preprocessAll cc a m).2).1,
      (preprocessAll cc b (preprocessAll cc a m).2).2) := by
  induction a with
  | nil => intro m; simp [preprocessAll]
  | cons h a ih => intro m; simp [preprocessAll, ih]

/-- What the guard of `h` stands for as long as the other version of `h` is not included. -/
def Kept (h : Header) (l : List Ev) (m : Macros) : Prop :=
  ∀ k, guard h = some k → m k = true → ∀ n ∈ provides h, Declared l n

theorem guard_cases {h : Header} {k : Macro} (e : guard h = some k) : k = .indirectH ∨ k = .polymorphicH := by
  cases h <;> simp [guard] at e <;> simp [← e]

theorem guard_same {h h' : Header} {k : Macro} (e : guard h = some k) (e' : guard h' = some k) : h' = h ∨ twin h = some h' := by
  cases h <;> simp [guard] at e <;> subst e <;> cases h' <;> simp [guard] at e' <;> simp [twin] <;> rename_i a b <;> cases a <;> cases b <;> simp

theorem kept_steps (cc : Compiler) (h : Header) (pre : List Header) : ∀ (l : List Ev) (m : Macros), Inv cc l m → Kept h l m →
    (∀ t, twin h = some t → t ∉ pre) → Kept h (l ++ (preprocessAll cc pre m).1) (preprocessAll cc pre m).2 := by
  induction pre with
  | nil => intro l m _ j _; simpa [preprocessAll] using j
  | cons x pre ih =>
    intro l m i j t
    have j' : Kept h (l ++ (preprocess cc (text x) m).1) (preprocess cc (text x) m).2 := by
      intro k e hk n hn
      have gs := guard_step cc x m i.features k (guard_cases e)
      rw [gs] at hk
      cases mk : m k with
      | true => exact declared_mono (fun e he => by simp [he]) (j k e mk n hn)
      | false =>
        simp only [mk, Bool.false_or, decide_eq_true_eq] at hk
        rcases guard_same e hk with rfl | q
        · exact provides_step cc x l m i (fun k' e' => by simp_all) n hn
        · exact absurd (by simp) (t x q)
    have := ih _ _ (step cc x l m i) j' (fun t' q hm => t t' q (by simp [hm]))
    simpa [preprocessAll] using this

theorem provides_all (cc : Compiler) (h : Header) (pre post : List Header) (t : ∀ t, twin h = some t → t ∉ pre) :
    ∀ n ∈ provides h, Declared (translate cc (pre ++ h :: post)) n := by
  intro n hn
  have i := steps cc pre [] noMacros (Inv.start cc)
  have j := kept_steps cc h pre [] noMacros (Inv.start cc) (fun k _ hk => by simp [noMacros] at hk) t
  simp only [List.nil_append] at i j
  have d : Declared ((preprocessAll cc pre noMacros).1 ++ (preprocess cc (text h) (preprocessAll cc pre noMacros).2).1) n := by
    cases e : guard h with
    | none => exact provides_step cc h _ _ i (by simp [e]) n hn
    | some k =>
      cases mk : (preprocessAll cc pre noMacros).2 k with
      | true => exact declared_mono (fun x hx => by simp [hx]) (j k e mk n hn)
      | false => exact provides_step cc h _ _ i (fun k' e' => by simp_all) n hn
  refine declared_mono (fun x hx => ?_) d
  simp only [translate, preprocessAll_append, preprocessAll, List.mem_append] at hx ⊢
  grind

/-- The versions of the class templates. -/
def version (v : Bool) : Version := if v then .cxx20 else .cxx14

/-- Is it a header of `indirect`? -/
def ofIndirect : Header → Bool
  | .indirect _ => true
  | _ => false

/-- Is it a header of `polymorphic`? -/
def ofPolymorphic : Header → Bool
  | .polymorphic _ => true
  | _ => false

theorem indirect_step (cc : Compiler) (h : Header) (m : Macros) (f : Features cc m) (w : Version) :
    Ev.defn .indirect w ∈ (preprocess cc (text h) m).1 ↔ m .indirectH = false ∧ ∃ v, h = .indirect v ∧ w = version v := by
  match h with
  | .std _ => simp [text, preprocess]
  | .featureCheck => simp [text]; exact mem_C (featureCheck_spec cc m f).1
  | .polymorphic b =>
    simp only [reduceCtorEq, false_and, exists_false, and_false, iff_false]
    intro d
    have := defs_step cc _ m f _ _ d
    cases b <;> simp [defs] at this
  | .indirect true =>
    cases g : m .indirectH with
    | true => simp [text, indirect20, preprocess, g]
    | false =>
      simp only [text]
      rw [indirect20_eq cc m g]
      have := @mem_U cc m .indirect w
      simp [version]
      grind
  | .indirect false =>
    cases g : m .indirectH with
    | true => simp [text, indirect14, preprocess, g]
    | false =>
      simp only [text]
      obtain ⟨c, n', hc, hn, hf, hg, e⟩ := indirect14_eq cc m g f
      rw [e]
      have h1 := @mem_U cc m .indirect w
      have h2 := @mem_B m .indirect w
      have h3 := @mem_D m .inPlaceDefined .inPlace .indirect .cxx14 w
      have h4 := @mem_C c hc .indirect w
      clear e hc hn
      cases cxx17 cc <;> simp [version] <;> grind

theorem polymorphic_step (cc : Compiler) (h : Header) (m : Macros) (f : Features cc m) (w : Version) :
    Ev.defn .polymorphic w ∈ (preprocess cc (text h) m).1 ↔
      m .polymorphicH = false ∧ ∃ v, h = .polymorphic v ∧ w = version v := by
  match h with
  | .std _ => simp [text, preprocess]
  | .featureCheck => simp [text]; exact mem_C (featureCheck_spec cc m f).1
  | .indirect b =>
    simp only [reduceCtorEq, false_and, exists_false, and_false, iff_false]
    intro d
    have := defs_step cc _ m f _ _ d
    cases b <;> simp [defs] at this
  | .polymorphic true =>
    cases g : m .polymorphicH with
    | true => simp [text, polymorphic20, preprocess, g]
    | false =>
      simp only [text]
      rw [polymorphic20_eq cc m g]
      have := @mem_U cc m .polymorphic w
      simp [version]
      grind
  | .polymorphic false =>
    cases g : m .polymorphicH with
    | true => simp [text, polymorphic14, preprocess, g]
    | false =>
      simp only [text]
      rw [polymorphic14_eq cc m g]
      have h1 := @mem_U cc m .polymorphic w
      have h2 := @mem_B m .polymorphic w
      have h3 := @mem_D m .inPlaceTypeDefined .inPlaceType .polymorphic .cxx14 w
      simp [version]
      grind

theorem indirect_first (cc : Compiler) (w : Version) (hs : List Header) : ∀ (l : List Ev) (m : Macros), Inv cc l m →
    (Ev.defn .indirect w ∈ (preprocessAll cc hs m).1 ↔
      m .indirectH = false ∧ ∃ v, hs.find? ofIndirect = some (.indirect v) ∧ w = version v) := by
  induction hs with
  | nil => intro l m _; simp [preprocessAll]
  | cons h hs ih =>
    intro l m i
    have g := guard_step cc h m i.features .indirectH (.inl rfl)
    simp only [preprocessAll, List.mem_append, indirect_step cc h m i.features, ih _ _ (step cc h l m i), g]
    cases h <;> cases m .indirectH <;> simp [guard, ofIndirect, List.find?]

theorem polymorphic_first (cc : Compiler) (w : Version) (hs : List Header) : ∀ (l : List Ev) (m : Macros), Inv cc l m →
    (Ev.defn .polymorphic w ∈ (preprocessAll cc hs m).1 ↔
      m .polymorphicH = false ∧ ∃ v, hs.find? ofPolymorphic = some (.polymorphic v) ∧ w = version v) := by
  induction hs with
  | nil => intro l m _; simp [preprocessAll]
  | cons h hs ih =>
    intro l m i
    have g := guard_step cc h m i.features .polymorphicH (.inr rfl)
    simp only [preprocessAll, List.mem_append, polymorphic_step cc h m i.features, ih _ _ (step cc h l m i), g]
    cases h <;> cases m .polymorphicH <;> simp [guard, ofPolymorphic, List.find?]

/-- No header undefines a macro. -/
theorem defined_mono (cc : Compiler) (t : Text) (k : Macro) : ∀ m : Macros, m k = true → (preprocess cc t m).2 k = true := by
  induction t with
  | fin => intro m h; simpa [preprocess] using h
  | define j rest ih =>
    intro m h
    simp only [preprocess]
    exact ih _ (by by_cases q : k = j <;> simp [set, q, h])
  | error rest ih => intro m h; exact ih m h
  | std f rest ih => intro m h; exact ih m h
  | defn n v rest ih => intro m h; exact ih m h
  | use n rest ih => intro m h; exact ih m h
  | incl b rest ih1 ih2 => intro m h; exact ih2 _ (ih1 _ h)
  | ifndef j b rest ih1 ih2 =>
    intro m h
    simp only [preprocess]
    exact ih2 _ (by split <;> first | exact h | exact ih1 _ h)
  | ifdef j b rest ih1 ih2 =>
    intro m h
    simp only [preprocess]
    exact ih2 _ (by split <;> first | exact h | exact ih1 _ h)
  | cond c b rest ih1 ih2 =>
    intro m h
    simp only [preprocess]
    exact ih2 _ (by split <;> first | exact h | exact ih1 _ h)

theorem defined_mono_all (cc : Compiler) (k : Macro) (hs : List Header) :
    ∀ m : Macros, m k = true → (preprocessAll cc hs m).2 k = true := by
  induction hs with
  | nil => intro m h; exact h
  | cons x hs ih => intro m h; exact ih _ (defined_mono cc _ k m h)

/-- feature_check.h was read. -/
theorem checked (cc : Compiler) (hs : List Header) : ∀ (l : List Ev) (m : Macros), Inv cc l m → .featureCheck ∈ hs →
    (preprocessAll cc hs m).2 .featureCheckH = true := by
  induction hs with
  | nil => intro l m _ h; simp at h
  | cons x hs ih =>
    intro l m i h
    rcases List.mem_cons.1 h with rfl | h
    · refine defined_mono_all cc _ hs _ ?_
      exact (featureCheck_spec cc m i.features).2.2 _ rfl
    · exact ih _ _ (step cc x l m i) h

theorem macros_stand (cc : Compiler) (hs : List Header) (h : .featureCheck ∈ hs) (k : Macro) (hk : feature k = true) :
    macrosAfter cc hs k = stands cc k := by
  have c : macrosAfter cc hs .featureCheckH = true := checked cc hs [] noMacros (Inv.start cc) h
  have := (inv cc hs).features k hk
  simpa [c] using this

theorem cxx17_iff (cc : Compiler) : cxx17 cc = true ↔ Cxx17 cc := by
  unfold cxx17 Cxx17
  cases cc.msvcLang <;> simp

theorem cxx20_iff (cc : Compiler) : cxx20 cc = true ↔ Cxx20 cc := by
  unfold cxx20 Cxx20
  cases cc.msvcLang <;> simp

theorem guard_all (cc : Compiler) (k : Macro) (hk : k = .indirectH ∨ k = .polymorphicH) (hs : List Header) :
    ∀ (l : List Ev) (m : Macros), Inv cc l m →
    (preprocessAll cc hs m).2 k = (m k || hs.any fun h => decide (guard h = some k)) := by
  induction hs with
  | nil => intro l m _; simp [preprocessAll]
  | cons h hs ih =>
    intro l m i
    simp only [preprocessAll, ih _ _ (step cc h l m i), guard_step cc h m i.features k hk, List.any_cons, Bool.or_assoc]

/-- Once one of the headers of `indirect` is included, the names of the other are not defined any more. -/
theorem guides_after (cc : Compiler) (v : Version) (hs : List Header) : ∀ (l : List Ev) (m : Macros), Inv cc l m →
    m .indirectH = true → Ev.defn .guides v ∉ (preprocessAll cc hs m).1 := by
  induction hs with
  | nil => intro l m _ _; simp [preprocessAll]
  | cons h hs ih =>
    intro l m i g
    have g' : (preprocess cc (text h) m).2 .indirectH = true := defined_mono cc _ _ m g
    simp only [preprocessAll, List.mem_append, not_or]
    refine ⟨fun d => ?_, ih _ _ (step cc h l m i) g'⟩
    match h with
    | .std _ => simp [text, preprocess] at d
    | .featureCheck => exact mem_C (featureCheck_spec cc m i.features).1 d
    | .indirect true => simp [text, indirect20, preprocess, g] at d
    | .indirect false => simp [text, indirect14, preprocess, g] at d
    | .polymorphic b =>
      have := defs_step cc _ m i.features _ _ d
      cases b <;> simp [defs] at this

theorem guides_iff (cc : Compiler) (before after : List Header) (hb : ∀ w, .indirect w ∉ before) :
    Declared (translate cc (before ++ .indirect false :: after)) .guides ↔ cxx17 cc = true := by
  have i := steps cc before [] noMacros (Inv.start cc)
  simp only [List.nil_append] at i
  have nb : ∀ v, Ev.defn .guides v ∉ (preprocessAll cc before noMacros).1 := by
    intro v d
    obtain ⟨h, hh, e⟩ := defs_steps cc _ v before [] noMacros (Inv.start cc) d
    match h with
    | .std _ => simp [defs] at e
    | .featureCheck => simp [defs] at e
    | .indirect w => exact hb w hh
    | .polymorphic b => cases b <;> simp [defs] at e
  have g : (preprocessAll cc before noMacros).2 .indirectH = false := by
    rw [guard_all cc _ (.inl rfl) before [] noMacros (Inv.start cc)]
    simp only [noMacros, Bool.false_or, List.any_eq_false, decide_eq_true_eq]
    intro h hh e
    cases h <;> simp [guard] at e
    exact hb _ hh
  have j := step cc (.indirect false) _ _ i
  have g' : (preprocess cc (text (.indirect false)) (preprocessAll cc before noMacros).2).2 .indirectH = true := by
    rw [guard_step cc _ _ i.features _ (.inl rfl)]; simp [guard]
  have na := fun v => guides_after cc v after _ _ j g'
  have here : (∃ v, Ev.defn .guides v ∈ (preprocess cc (text (.indirect false)) (preprocessAll cc before noMacros).2).1) ↔
      cxx17 cc = true := by
    simp only [text]
    obtain ⟨c, n', hc, hn, hf, hg, e⟩ := indirect14_eq cc _ g i.features
    rw [e]
    constructor
    · rintro ⟨v, d⟩
      have h1 := @mem_U cc (preprocessAll cc before noMacros).2 .guides v
      have h2 := @mem_B (preprocessAll cc before noMacros).2 .guides v
      have h3 := @mem_D (preprocessAll cc before noMacros).2 .inPlaceDefined .inPlace .guides .cxx14 v
      have h4 := @mem_C c hc .guides v
      clear e hc hn
      cases q : cxx17 cc
      · simp [q] at d; grind
      · rfl
    · intro q
      exact ⟨.cxx14, by simp [q]⟩
  rw [← here]
  simp only [Declared, translate, preprocessAll_append, preprocessAll, List.mem_append]
  constructor
  · rintro ⟨v, d | d | d⟩
    · exact absurd d (nb v)
    · exact ⟨v, d⟩
    · exact absurd d (na v)
  · rintro ⟨v, d⟩
    exact ⟨v, .inr (.inl d)⟩

/-- feature_check.h includes `<memory_resource>`. -/
theorem featureCheck_resource (cc : Compiler) (m : Macros) (a : cc.hasInclude = true) (b : 201703 ≤ cc.cplusplus)
    (c : cc.hasMemoryResource = true) (g : m .featureCheckH = false) :
    Ev.std .memoryResource ∈ (preprocess cc featureCheck m).1 := by
  unfold featureCheck
  rw [preprocess]
  simp [preprocess, g, a, b, c]

theorem featureH_step (cc : Compiler) (h : Header) (l : List Ev) (m : Macros) (a : cc.hasInclude = true)
    (b : 201703 ≤ cc.cplusplus) (c : cc.hasMemoryResource = true) (r : m .featureCheckH = true → Ev.std .memoryResource ∈ l) :
    (preprocess cc (text h) m).2 .featureCheckH = true → Ev.std .memoryResource ∈ l ++ (preprocess cc (text h) m).1 := by
  intro e
  cases g : m .featureCheckH with
  | true => simp [r g]
  | false =>
    match h with
    | .std f => simp [text, preprocess, g] at e
    | .featureCheck => simp [text, featureCheck_resource cc m a b c g]
    | .indirect true =>
      cases q : m .indirectH with
      | true => simp [text, indirect20, preprocess, q, g] at e
      | false => simp only [text] at e; rw [indirect20_eq cc m q] at e; simp [Headers.set, g] at e
    | .polymorphic true =>
      cases q : m .polymorphicH with
      | true => simp [text, polymorphic20, preprocess, q, g] at e
      | false => simp only [text] at e; rw [polymorphic20_eq cc m q] at e; simp [Headers.set, g] at e
    | .polymorphic false =>
      cases q : m .polymorphicH with
      | true => simp [text, polymorphic14, preprocess, q, g] at e
      | false => simp only [text] at e; rw [polymorphic14_eq cc m q] at e; simp [Headers.set, g] at e
    | .indirect false =>
      cases q : m .indirectH with
      | true => simp [text, indirect14, preprocess, q, g] at e
      | false =>
        have := featureCheck_resource cc (Headers.set m .indirectH) a b c (by simp [Headers.set, g])
        simp only [text, List.mem_append]
        right
        unfold indirect14
        rw [preprocess]
        simp only [q, Bool.false_eq_true, if_false]
        rw [define_eq]
        simp only [preprocess.eq_7, preprocess.eq_8]
        simp [this]

theorem resource_included (cc : Compiler) (hs : List Header) (a : cc.hasInclude = true) (b : 201703 ≤ cc.cplusplus)
    (c : cc.hasMemoryResource = true) (h : .featureCheck ∈ hs) : Ev.std .memoryResource ∈ translate cc hs := by
  have : ∀ (hs : List Header) (l : List Ev) (m : Macros), Inv cc l m → (m .featureCheckH = true → Ev.std .memoryResource ∈ l) →
      (preprocessAll cc hs m).2 .featureCheckH = true → Ev.std .memoryResource ∈ l ++ (preprocessAll cc hs m).1 := by
    intro hs
    induction hs with
    | nil => intro l m _ r e; simpa [preprocessAll] using r e
    | cons x hs ih =>
      intro l m i r e
      have := ih _ _ (step cc x l m i) (featureH_step cc x l m a b c r) e
      simpa [preprocessAll] using this
  simpa [translate] using this hs [] noMacros (Inv.start cc) (by simp [noMacros]) (checked cc hs [] noMacros (Inv.start cc) h)

end Verif.Headers
