import Verif.Proofs.Mixed

/-!
# C87: comparison of nested and mixed operands

Operands may be plain values, `indirect`s, `indirect`s of `indirect`s and so on, of different types and depths.  Every comparison selects one operator,
and its result is that of what one finds at the ends: values compare as themselves, valueless operands are less than values, and among
themselves the less the earlier they are met.  So comparisons of such operands form an equivalence and an order.  Objects of classes derived from
`indirect` are the exception.
-/

set_option autoImplicit false
set_option linter.unusedSimpArgs false
set_option linter.unusedSectionVars false

namespace Verif.Props
open Verif.Mixed Verif.Spec

section
variable {U V : Type} {L : Leaf U V}

private theorem own_of_gone {x : Val U V} (h : Plain (x.ty L)) (hx : x.owns = true) : ∃ t, x.ty L = .own .self t := by
  cases x with
  | plain v => exact nomatch hx
  | valueless k t => exact ⟨t, by rw [Val.ty, h.1]⟩
  | engaged k v => exact ⟨_, by rw [Val.ty, h.1]⟩

private theorem endOp_under_under (op : Mixed.Op) (e e' : Ending V) : endOp L op e.under e'.under = endOp L op e e' := by
  cases e <;> cases e' <;> cases op <;> simp [Ending.under, endOp, natOp]

private theorem endOp_under_value (op : Mixed.Op) (e : Ending V) (b : V) : endOp L op e.under (.value b) = endOp L op e (.value b) := by
  cases e <;> rfl

private theorem endOp_value_under (op : Mixed.Op) (a : V) (e : Ending V) : endOp L op (.value a) e.under = endOp L op (.value a) e := by
  cases e <;> rfl

private theorem endOp_zero_under (op : Mixed.Op) (e : Ending V) : endOp L op (.valueless 0) e.under = bothGone true false op := by
  cases e <;> cases op <;> simp [Ending.under, endOp, natOp, bothGone]

private theorem endOp_under_zero (op : Mixed.Op) (e : Ending V) : endOp L op e.under (.valueless 0) = bothGone false true op := by
  cases e <;> cases op <;> simp [Ending.under, endOp, natOp, bothGone]

/-! ### The operators -/

/-- indirect_cxx14.h: the six operators, for all operators that plain types may have. -/
theorem C87_cxx14 (op : Mixed.Op) (x y : Val U V) (hx : Plain (x.ty L)) (hy : Plain (y.ty L)) :
    ev14 L op x y = some (endOp L op (ending x) (ending y)) := by
  induction hn : x.size + y.size using Nat.strongRecOn generalizing x y with
  | ind n ih =>
    subst hn
    cases x with
    | plain a =>
      cases y with
      | plain b => exact ev14_plain L op a b
      | valueless k t => rw [ev14_right L op a _ rfl]; cases op <;> rfl
      | engaged k v =>
        rw [ev14_right L op a _ rfl]
        simp only [Val.gone, Val.inner, Bool.false_eq_true, if_false, ending, endOp_value_under]
        exact ih _ (by simp [Val.size]) (.plain a) v hx hy.2 rfl
    | valueless k t =>
      cases y with
      | plain b => rw [ev14_left L op _ b rfl]; cases op <;> rfl
      | valueless k' t' =>
        obtain ⟨u, hu⟩ := own_of_gone hx rfl
        obtain ⟨u', hu'⟩ := own_of_gone hy rfl
        rw [ev14_both L op _ _ hu hu']; cases op <;> rfl
      | engaged k' v =>
        obtain ⟨u, hu⟩ := own_of_gone hx rfl
        obtain ⟨u', hu'⟩ := own_of_gone hy rfl
        rw [ev14_both L op _ _ hu hu']
        simp only [Val.gone, Bool.true_or, if_true, ending, endOp_zero_under]
    | engaged k v =>
      cases y with
      | plain b =>
        rw [ev14_left L op _ b rfl]
        simp only [Val.gone, Val.inner, Bool.false_eq_true, if_false, ending, endOp_under_value]
        exact ih _ (by simp [Val.size]) v (.plain b) hx.2 hy rfl
      | valueless k' t' =>
        obtain ⟨u, hu⟩ := own_of_gone hx rfl
        obtain ⟨u', hu'⟩ := own_of_gone hy rfl
        rw [ev14_both L op _ _ hu hu']
        simp only [Val.gone, Bool.or_true, if_true, ending, endOp_under_zero]
      | engaged k' w =>
        obtain ⟨u, hu⟩ := own_of_gone hx rfl
        obtain ⟨u', hu'⟩ := own_of_gone hy rfl
        rw [ev14_both L op _ _ hu hu']
        simp only [Val.gone, Val.inner, Bool.or_self, Bool.false_eq_true, if_false, ending, endOp_under_under]
        exact ih _ (by simp only [Val.size]; omega) v w hx.2 hy.2 rfl

private theorem endOp_eq_comm (hs : ∀ a b, L.eq a b = L.eq b a) (e e' : Ending V) : endOp L .eq e e' = endOp L .eq e' e := by
  cases e <;> cases e'
  · simp only [endOp, natOp]; rw [Bool.eq_iff_iff]; simp only [beq_iff_eq]; exact eq_comm
  · rfl
  · rfl
  · exact hs _ _

/-- indirect.h: equality, for plain types whose equality is symmetric (the language may exchange operands). -/
theorem C87_equality (hs : ∀ a b, L.eq a b = L.eq b a) (x y : Val U V) (hx : Plain (x.ty L)) (hy : Plain (y.ty L)) :
    eq20 L x y = some (endOp L .eq (ending x) (ending y)) := by
  induction hn : x.size + y.size using Nat.strongRecOn generalizing x y with
  | ind n ih =>
    subst hn
    cases x with
    | plain a =>
      cases y with
      | plain b => exact eq20_plain L a b
      | valueless k t => rw [eq20_right L _ _ rfl (select_plain_own ..)]; rfl
      | engaged k v =>
        rw [eq20_right L _ _ rfl (select_plain_own ..)]
        simp only [Val.gone, Val.inner, Bool.false_eq_true, if_false, ending, endOp_value_under]
        rw [ih _ (by simp only [Val.size]; omega) v (.plain a) hy.2 hx rfl, endOp_eq_comm hs]
        rfl
    | valueless k t =>
      cases y with
      | plain b => rw [eq20_left L _ _ rfl (select_own_plain ..)]; rfl
      | valueless k' t' =>
        obtain ⟨u, hu⟩ := own_of_gone hx rfl
        obtain ⟨u', hu'⟩ := own_of_gone hy rfl
        rw [eq20_both L _ _ hu hu']; rfl
      | engaged k' v =>
        obtain ⟨u, hu⟩ := own_of_gone hx rfl
        obtain ⟨u', hu'⟩ := own_of_gone hy rfl
        rw [eq20_both L _ _ hu hu']
        simp only [Val.gone, if_true, ending, endOp_zero_under]
        rfl
    | engaged k v =>
      cases y with
      | plain b =>
        rw [eq20_left L _ _ rfl (select_own_plain ..)]
        simp only [Val.gone, Val.inner, Bool.false_eq_true, if_false, ending, endOp_under_value]
        exact ih _ (by simp [Val.size]) v (.plain b) hx.2 hy rfl
      | valueless k' t' =>
        obtain ⟨u, hu⟩ := own_of_gone hx rfl
        obtain ⟨u', hu'⟩ := own_of_gone hy rfl
        rw [eq20_both L _ _ hu hu']
        simp only [Val.gone, Bool.false_eq_true, if_false, if_true, ending, endOp_under_zero]
        rfl
      | engaged k' w =>
        obtain ⟨u, hu⟩ := own_of_gone hx rfl
        obtain ⟨u', hu'⟩ := own_of_gone hy rfl
        rw [eq20_both L _ _ hu hu']
        simp only [Val.gone, Val.inner, Bool.false_eq_true, if_false, ending, endOp_under_under]
        exact ih _ (by simp only [Val.size]; omega) v w hx.2 hy.2 rfl

variable [DecidableEq U]

private theorem endCmp_under_under (f : V → V → Cmp) (e e' : Ending V) : endCmp f e.under e'.under = endCmp f e e' := by
  cases e <;> cases e' <;> simp [Ending.under, endCmp]

private theorem endCmp_swap {f : V → V → Cmp} (hs : ∀ a b, f b a = reverse (f a b)) (e e' : Ending V) :
    endCmp f e' e = reverse (endCmp f e e') := by
  cases e with
  | valueless i =>
    cases e' with
    | valueless j =>
      simp only [endCmp]
      rcases Nat.lt_trichotomy i j with h | h | h
      · simp [h, Nat.lt_asymm h, reverse]
      · subst h; simp [reverse]
      · simp [h, Nat.lt_asymm h, reverse]
    | value b => rfl
  | value a =>
    cases e' with
    | valueless j => rfl
    | value b => exact hs a b

private theorem endCmp_total {f : V → V → Cmp} (ht : ∀ a b, f a b ≠ .unordered) (e e' : Ending V) : endCmp f e e' ≠ .unordered := by
  cases e <;> cases e' <;> simp [endCmp, ht]
  split
  · nofun
  · split <;> nofun

private theorem reversed_eq_reverse (c : Cmp) : reversed c = reverse c := by cases c <;> rfl

private theorem synth20_of {f : V → V → Cmp} (ho : OrderedBy L f) {x y : Val U V}
    (h1 : x.owns = true ∨ y.owns = true → cmp20 L x y = some (endCmp f (ending x) (ending y)))
    (h2 : x.owns = true ∨ y.owns = true → cmp20 L y x = some (endCmp f (ending y) (ending x))) :
    synth20 L x y = some (endCmp f (ending x) (ending y)) := by
  have lt : ∀ (x y : Val U V), (x.owns = true ∨ y.owns = true → cmp20 L x y = some (endCmp f (ending x) (ending y))) →
      less L x y (cmp20 L x y) = some (endCmp f (ending x) (ending y) == .less) := by
    intro x y h
    cases x with
    | plain a =>
      cases y with
      | plain b => simp [less, ho.lt, isLt, ending, endCmp]
      | valueless _ _ => simp only [less, h (Or.inr rfl), Option.map_some]
      | engaged _ _ => simp only [less, h (Or.inr rfl), Option.map_some]
    | valueless _ _ => simp only [less, h (Or.inl rfl), Option.map_some]
    | engaged _ _ => simp only [less, h (Or.inl rfl), Option.map_some]
  unfold synth20 synth
  split
  · next h3 =>
    cases x with
    | plain a =>
      cases y with
      | plain b =>
        rw [cmp20_plain]
        simp only [ending, endCmp]
        rw [ho.cmp a b h3]
      | valueless _ _ => exact h1 (Or.inr rfl)
      | engaged _ _ => exact h1 (Or.inr rfl)
    | valueless _ _ => exact h1 (Or.inl rfl)
    | engaged _ _ => exact h1 (Or.inl rfl)
  · rw [lt x y h1, lt y x (fun h => h2 h.symm), endCmp_swap ho.swap (ending x) (ending y)]
    have := endCmp_total ho.total (ending x) (ending y)
    cases hc : endCmp f (ending x) (ending y) with
    | less => rfl
    | equivalent => rfl
    | greater => rfl
    | unordered => exact absurd hc this

/-- indirect.h: `<=>`, for plain types whose operators belong to a total order.  Missing: orders that are not total, see `C87_unordered_violation`. -/
theorem C87_three_way_partial {f : V → V → Cmp} (ho : OrderedBy L f) (x y : Val U V) (hx : Plain (x.ty L)) (hy : Plain (y.ty L))
    (hw : x.owns = true ∨ y.owns = true) : cmp20 L x y = some (endCmp f (ending x) (ending y)) := by
  induction hn : x.size + y.size using Nat.strongRecOn generalizing x y with
  | ind n ih =>
    subst hn
    have step : ∀ x' y' : Val U V, x'.size + y'.size < x.size + y.size → Plain (x'.ty L) → Plain (y'.ty L) →
        synth20 L x' y' = some (endCmp f (ending x') (ending y')) := by
      intro x' y' hlt hx' hy'
      exact synth20_of ho (fun h => ih _ hlt x' y' hx' hy' h rfl)
        (fun h => ih _ (by omega) y' x' hy' hx' h.symm rfl)
    cases x with
    | plain a =>
      cases y with
      | plain b => exact absurd hw (by simp [Val.owns])
      | valueless k t => rw [cmp20_right L a _ rfl]; rfl
      | engaged k v =>
        rw [cmp20_right L a _ rfl]
        simp only [Val.gone, Val.inner, Bool.false_eq_true, if_false]
        rw [step v (.plain a) (by simp only [Val.size]; omega) hy.2 hx, Option.map_some, reversed_eq_reverse, ← endCmp_swap ho.swap]
        congr 1
        cases h : ending v <;> simp [ending, h, Ending.under, endCmp]
    | valueless k t =>
      cases y with
      | plain b => rw [cmp20_left L _ b rfl]; rfl
      | valueless k' t' =>
        obtain ⟨u, hu⟩ := own_of_gone hx rfl
        obtain ⟨u', hu'⟩ := own_of_gone hy rfl
        rw [cmp20_both L _ _ hu hu']; rfl
      | engaged k' v =>
        obtain ⟨u, hu⟩ := own_of_gone hx rfl
        obtain ⟨u', hu'⟩ := own_of_gone hy rfl
        rw [cmp20_both L _ _ hu hu']
        cases h : ending v <;> simp [ending, h, Ending.under, endCmp, Val.gone, cmpBool]
    | engaged k v =>
      cases y with
      | plain b =>
        rw [cmp20_left L _ b rfl]
        simp only [Val.gone, Val.inner, Bool.false_eq_true, if_false]
        rw [step v (.plain b) (by simp [Val.size]) hx.2 hy]
        congr 1
        cases h : ending v <;> simp [ending, h, Ending.under, endCmp]
      | valueless k' t' =>
        obtain ⟨u, hu⟩ := own_of_gone hx rfl
        obtain ⟨u', hu'⟩ := own_of_gone hy rfl
        rw [cmp20_both L _ _ hu hu']
        cases h : ending v <;> simp [ending, h, Ending.under, endCmp, Val.gone, cmpBool]
      | engaged k' w =>
        obtain ⟨u, hu⟩ := own_of_gone hx rfl
        obtain ⟨u', hu'⟩ := own_of_gone hy rfl
        rw [cmp20_both L _ _ hu hu']
        simp only [Val.gone, Val.inner, Bool.or_self, Bool.false_eq_true, if_false, ending, endCmp_under_under]
        exact step v w (by simp only [Val.size]; omega) hx.2 hy.2

/-- Operands of the same type: `<=>` for all orders, total or not, if the plain type has `<=>`. -/
theorem C87_three_way_same_type (h3 : ∀ u, L.three u u = true) (x y : Val U V) (hx : Plain (x.ty L)) (ht : x.ty L = y.ty L) :
    cmp20 L x y = some (endCmp L.cmp (ending x) (ending y)) := by
  induction hn : x.size + y.size using Nat.strongRecOn generalizing x y with
  | ind n ih =>
    subst hn
    cases x with
    | plain a =>
      cases y with
      | plain b => exact cmp20_plain L a b
      | valueless k t => exact nomatch ht
      | engaged k v => exact nomatch ht
    | valueless k t =>
      have hy : Plain (y.ty L) := ht ▸ hx
      obtain ⟨u, hu⟩ := own_of_gone hx rfl
      cases y with
      | plain b => exact nomatch ht
      | valueless k' t' =>
        rw [cmp20_both L _ _ hu (ht ▸ hu)]; rfl
      | engaged k' v =>
        rw [cmp20_both L _ _ hu (ht ▸ hu)]
        cases h : ending v <;> simp [ending, h, Ending.under, endCmp, Val.gone, cmpBool]
    | engaged k v =>
      obtain ⟨u, hu⟩ := own_of_gone hx rfl
      cases y with
      | plain b => exact nomatch ht
      | valueless k' t' =>
        rw [cmp20_both L _ _ hu (ht ▸ hu)]
        cases h : ending v <;> simp [ending, h, Ending.under, endCmp, Val.gone, cmpBool]
      | engaged k' w =>
        rw [cmp20_both L _ _ hu (ht ▸ hu)]
        simp only [Val.gone, Val.inner, Bool.or_self, Bool.false_eq_true, if_false, ending, endCmp_under_under]
        have ht' : v.ty L = w.ty L := by
          simp only [Val.ty, Ty.own.injEq] at ht
          exact ht.2
        have hr := ih _ (by simp only [Val.size]; omega) v w hx.2 ht' rfl
        have h3' : three L (v.ty L) (w.ty L) = true := by
          rw [← ht']
          cases hv : v.ty L with
          | plain u => exact h3 u
          | own k t =>
            have := hx.2
            rw [hv] at this
            rw [this.1]
            simp [three]
        unfold synth20 synth
        rw [if_pos h3']
        exact hr

/-- All comparison expressions in C++20. -/
theorem C87_operators_partial {f : V → V → Cmp} (ho : OrderedBy L f) (hs : ∀ a b, L.eq a b = L.eq b a) (x y : Val U V)
    (hx : Plain (x.ty L)) (hy : Plain (y.ty L)) (hw : x.owns = true ∨ y.owns = true) :
    ev20 L .eq x y = some (endOp L .eq (ending x) (ending y)) ∧ ev20 L .ne x y = some (!endOp L .eq (ending x) (ending y)) ∧
      ev20 L .lt x y = some (isLt (endCmp f (ending x) (ending y))) ∧ ev20 L .gt x y = some (isGt (endCmp f (ending x) (ending y))) ∧
      ev20 L .le x y = some (isLe (endCmp f (ending x) (ending y))) ∧ ev20 L .ge x y = some (isGe (endCmp f (ending x) (ending y))) := by
  have h1 := C87_equality hs x y hx hy
  have h2 := C87_three_way_partial ho x y hx hy hw
  unfold ev20
  refine ⟨h1, ?_, ?_, ?_, ?_, ?_⟩
  · rw [h1]; rfl
  all_goals rw [h2]; cases endCmp f (ending x) (ending y) <;> rfl

/-- All comparison expressions of operands of the same type in C++20, for all orders. -/
theorem C87_operators_same_type (h3 : ∀ u, L.three u u = true) (hs : ∀ a b, L.eq a b = L.eq b a) (x y : Val U V) (hx : Plain (x.ty L))
    (ht : x.ty L = y.ty L) :
    ev20 L .eq x y = some (endOp L .eq (ending x) (ending y)) ∧ ev20 L .ne x y = some (!endOp L .eq (ending x) (ending y)) ∧
      ev20 L .lt x y = some (isLt (endCmp L.cmp (ending x) (ending y))) ∧ ev20 L .gt x y = some (isGt (endCmp L.cmp (ending x) (ending y))) ∧
      ev20 L .le x y = some (isLe (endCmp L.cmp (ending x) (ending y))) ∧ ev20 L .ge x y = some (isGe (endCmp L.cmp (ending x) (ending y))) := by
  have h1 := C87_equality hs x y hx (ht ▸ hx)
  have h2 := C87_three_way_same_type h3 x y hx ht
  unfold ev20
  refine ⟨h1, ?_, ?_, ?_, ?_, ?_⟩
  · rw [h1]; rfl
  all_goals rw [h2]; cases endCmp L.cmp (ending x) (ending y) <;> rfl

/-- The C++14 and the C++20 header agree, where the operators of the plain type do. -/
theorem C87_agree {f : V → V → Cmp} (ho : OrderedBy L f) (hs : ∀ a b, L.eq a b = L.eq b a) (hne : ∀ a b, L.ne a b = !L.eq a b)
    (hgt : ∀ a b, L.gt a b = isGt (f a b)) (hle : ∀ a b, L.le a b = isLe (f a b)) (hge : ∀ a b, L.ge a b = isGe (f a b))
    (op : Mixed.Op) (x y : Val U V) (hx : Plain (x.ty L)) (hy : Plain (y.ty L)) (hw : x.owns = true ∨ y.owns = true) :
    ev20 L op x y = ev14 L op x y := by
  obtain ⟨h1, h2, h3, h4, h5, h6⟩ := C87_operators_partial ho hs x y hx hy hw
  rw [C87_cxx14 op x y hx hy]
  have tri : ∀ i j : Nat, endCmp f (.valueless i) (.valueless j) = .less ∧ i < j ∨ endCmp f (.valueless i) (.valueless j) = .equivalent ∧ i = j ∨
      endCmp f (.valueless i) (.valueless j) = .greater ∧ j < i := by
    intro i j
    simp only [endCmp]
    rcases Nat.lt_trichotomy i j with h | h | h
    · simp [h]
    · subst h; simp
    · simp [h, Nat.lt_asymm h]
  cases op
  · exact h1
  · rw [h2]; cases ending x <;> cases ending y <;> simp [endOp, natOp, Leaf.op, hne, bne]
  all_goals
    first | rw [h3] | rw [h4] | rw [h5] | rw [h6]
    congr 1
    cases ending x with
    | value a =>
      cases ending y with
      | value b => simp [endOp, endCmp, Leaf.op, ho.lt, hgt, hle, hge]
      | valueless j => rfl
    | valueless i =>
      cases ending y with
      | value b => rfl
      | valueless j =>
        rcases tri i j with ⟨h, h'⟩ | ⟨h, h'⟩ | ⟨h, h'⟩ <;> rw [h] <;> simp only [endOp, natOp] <;> symm <;>
          first | exact decide_eq_true (by omega) | exact decide_eq_false (by omega)

/-! ### Laws -/

/-- Equality of operands of all types and depths is an equivalence relation, if that of plain values is. -/
theorem C87_equivalence (h : Spec.Equivalence L.eq) : Spec.Equivalence (endOp L .eq) where
  refl e := by cases e <;> simp [endOp, natOp, Leaf.op, h.refl]
  symm e e' := by
    cases e <;> cases e' <;> simp [endOp, natOp, Leaf.op]
    · exact fun h => h.symm
    · exact h.symm _ _
  trans e e' e'' := by
    cases e <;> cases e' <;> cases e'' <;> simp [endOp, natOp, Leaf.op]
    · exact fun h1 h2 => h1.trans h2
    · exact h.trans _ _ _

/-- And `<=>` an order, if that of plain values is. -/
theorem C87_order {f : V → V → Cmp} (h : Lawful f) : Lawful (endCmp f) where
  refl e := by cases e <;> simp [endCmp, h.refl]
  reverse e e' := endCmp_swap h.reverse e e'
  trans e e' e'' := by
    cases e <;> cases e' <;> cases e'' <;> simp only [endCmp] <;> try (intro h1 h2; (first | (cases h1; done) | (cases h2; done)))
    · intro h1 h2
      have a := of_ite h1
      have b := of_ite h2
      rw [if_pos (Nat.lt_trans a b)]
    · exact fun _ _ => trivial
    · exact fun _ _ => trivial
    · exact h.trans _ _ _
  congr e e' e'' := by
    cases e <;> cases e' <;> cases e'' <;> simp only [endCmp] <;> try (intro h1; cases h1; done)
    · intro h1
      rw [of_ite_eq h1]
    · exact fun _ => trivial
    · exact fun _ => trivial
    · exact h.congr _ _ _
where
  of_ite {i j : Nat} (h : (if i < j then Cmp.less else if j < i then .greater else .equivalent) = .less) : i < j := by
    split at h
    · assumption
    · split at h <;> exact nomatch h
  of_ite_eq {i j : Nat} (h : (if i < j then Cmp.less else if j < i then .greater else .equivalent) = .equivalent) : i = j := by
    split at h
    · exact nomatch h
    · split at h
      · exact nomatch h
      · omega

/-! ### Comparisons compile -/

/-- Without derived classes a comparison compiles exactly if plain values of the types at the ends can be compared: no comparison is
ambiguous. -/
theorem C87_compiles (s : Std) {ok : U → U → Bool} (hs : ∀ u v, ok u v = ok v u) (x y : Ty U) (hx : Plain x) (hy : Plain y) :
    compiles s ok x y = ok (endType x) (endType y) := by
  induction hn : x.size + y.size using Nat.strongRecOn generalizing x y with
  | ind n ih =>
    subst hn
    cases x with
    | plain u =>
      cases y with
      | plain v => rw [compiles]; rfl
      | own k t =>
        rw [compiles, select_plain_own]
        simp only
        split
        · rw [ih _ (by simp only [Ty.size]; omega) t (.plain u) hy.2 hx rfl, hs]; rfl
        · rw [ih _ (by simp only [Ty.size]; omega) (.plain u) t hx hy.2 rfl]; rfl
    | own k t =>
      cases y with
      | plain v =>
        rw [compiles, select_own_plain]
        simp only
        rw [ih _ (by simp only [Ty.size]; omega) t (.plain v) hx.2 hy rfl]; rfl
      | own k' t' =>
        rw [compiles, hx.1, hy.1, select_own_own]
        simp only
        rw [ih _ (by simp only [Ty.size]; omega) t t' hx.2 hy.2 rfl]; rfl

/-- What compiles has a result, derived classes or not. -/
theorem C87_compiled {ok : U → U → Bool} (x y : Val U V) (h : compiles .cxx20 ok (x.ty L) (y.ty L) = true) : ∃ b, eq20 L x y = some b := by
  induction hn : x.size + y.size using Nat.strongRecOn generalizing x y with
  | ind n ih =>
    subst hn
    rw [eq20.eq_def]
    cases x with
    | plain a =>
      cases y with
      | plain b => exact ⟨_, rfl⟩
      | valueless k t =>
        simp only [Val.ty, select_plain_own]
        exact ⟨false, rfl⟩
      | engaged k v =>
        simp only [Val.ty] at h ⊢
        rw [compiles, select_plain_own] at h
        simp only [select_plain_own, Val.gone, Val.owns, Val.inner, Bool.false_eq_true, dif_neg, dif_pos, not_false_eq_true]
        exact ih _ (by simp only [Val.size]; omega) v (.plain a) h rfl
    | valueless k t =>
      cases y with
      | plain b =>
        simp only [Val.ty, select_own_plain]
        exact ⟨false, rfl⟩
      | valueless k' t' =>
        simp only [Val.ty] at h ⊢
        rw [compiles] at h
        split at h
        all_goals first
          | (next hs => simp only [hs, Val.gone, dif_pos]; exact ⟨_, rfl⟩)
          | exact nomatch h
      | engaged k' w =>
        simp only [Val.ty] at h ⊢
        rw [compiles] at h
        split at h
        · next hs => simp only [hs, Val.gone, dif_pos]; exact ⟨_, rfl⟩
        · next hs => simp [hs, Val.gone]
        · next hs => simp [hs, Val.gone]
        · next hs =>
          simp only [hs, Val.gone, Val.owns, Val.inner, Bool.false_eq_true, dif_neg, dif_pos, not_false_eq_true]
          exact ih _ (by simp only [Val.size]; omega) w (.valueless k t) h rfl
        · exact nomatch h
    | engaged k v =>
      cases y with
      | plain b =>
        simp only [Val.ty] at h ⊢
        rw [compiles, select_own_plain] at h
        simp only [select_own_plain, Val.gone, Val.owns, Val.inner, Bool.false_eq_true, dif_neg, dif_pos, not_false_eq_true]
        exact ih _ (by simp only [Val.size]; omega) v (.plain b) h rfl
      | valueless k' t' =>
        simp only [Val.ty] at h ⊢
        rw [compiles] at h
        split at h
        · next hs => simp [hs, Val.gone]
        · next hs => simp [hs, Val.gone]
        · next hs =>
          simp only [hs, Val.gone, Val.owns, Val.inner, Bool.false_eq_true, dif_neg, dif_pos, not_false_eq_true]
          exact ih _ (by simp only [Val.size]; omega) v (.valueless k' t') h rfl
        · next hs => simp [hs, Val.gone]
        · exact nomatch h
      | engaged k' w =>
        simp only [Val.ty] at h ⊢
        rw [compiles] at h
        split at h
        · next hs =>
          simp only [hs, Val.gone, Val.owns, Val.inner, Bool.false_eq_true, dif_neg, dif_pos, not_false_eq_true, and_self]
          exact ih _ (by simp only [Val.size]; omega) v w h rfl
        · next hs =>
          simp only [hs, Val.gone, Val.owns, Val.inner, Bool.false_eq_true, dif_neg, dif_pos, not_false_eq_true, and_self]
          exact ih _ (by simp only [Val.size]; omega) w v h rfl
        · next hs =>
          simp only [hs, Val.gone, Val.owns, Val.inner, Bool.false_eq_true, dif_neg, dif_pos, not_false_eq_true]
          exact ih _ (by simp only [Val.size]; omega) v (.engaged k' w) h rfl
        · next hs =>
          simp only [hs, Val.gone, Val.owns, Val.inner, Bool.false_eq_true, dif_neg, dif_pos, not_false_eq_true]
          exact ih _ (by simp only [Val.size]; omega) w (.engaged k v) h rfl
        · exact nomatch h

/-! ### What goes wrong -/

/-- Two objects of classes derived from `indirect` (of the same class, or of different ones) cannot be compared: every comparison is ambiguous. -/
theorem C87_derived_violation (s : Std) (ok : U → U → Bool) (d d' : Nat) (t t' : Ty U) :
    compiles s ok (.own (.derived d) t) (.own (.derived d') t') = false := by
  rw [compiles, select_derived_derived]

/-- An object of a derived class that is valueless is not equal to a valueless `indirect`, but greater than it: it is taken for a plain value.  So an
object of a derived class need not be equal to itself seen as an `indirect`. -/
theorem C87_derived_valueless_violation (d : Nat) (t : Ty U) :
    eq20 L (.valueless (.derived d) t) (.valueless .self t) = some false ∧
      cmp20 L (.valueless (.derived d) t) (.valueless .self t) = some .greater ∧
      ev14 L .eq (.valueless (.derived d) t) (.valueless .self t) = some false ∧
      ev14 L .gt (.valueless (.derived d) t) (.valueless .self t) = some true := by
  have hs := fun s => select_derived_own s d t t
  refine ⟨?_, ?_, ?_, ?_⟩
  · rw [eq20_right L _ _ rfl (hs _)]; rfl
  · rw [cmp20]
    · simp only [Val.ty, hs]; rfl
    · nofun
  · rw [ev14]
    · simp only [Val.ty, hs]; rfl
    · nofun
  · rw [ev14]
    · simp only [Val.ty, hs]; rfl
    · nofun

/-- The same in general: in C++20 an object of a derived class equals an `indirect` exactly if both lead to values that are equal. -/
theorem C87_derived_exactly (hs : ∀ a b, L.eq a b = L.eq b a) (x y : Val U V) {d : Nat} {t : Ty U} (hx : x.ty L = .own (.derived d) t)
    (ht : Plain t) (hy : Plain (y.ty L)) :
    eq20 L x y = some (match ending x, ending y with | .value a, .value b => L.eq a b | _, _ => false) ∧ eq20 L y x = eq20 L x y := by
  have inner : x.gone = false → Plain (x.inner.ty L) ∧ ending x = (ending x.inner).under := by
    intro h
    cases x with
    | plain a => exact nomatch hx
    | valueless _ _ => exact nomatch h
    | engaged k v =>
      simp only [Val.ty, Ty.own.injEq] at hx
      exact ⟨hx.2 ▸ ht, rfl⟩
  have gone : x.gone = true → ending x = .valueless 0 := by
    intro h
    cases x with
    | plain a => exact nomatch hx
    | valueless _ _ => rfl
    | engaged k v => exact nomatch h
  induction y with
  | plain b =>
    rw [eq20_left L x _ hx (by rw [hx]; exact select_own_plain ..), eq20_right L _ x hx (by rw [hx]; exact select_plain_own ..)]
    cases hg : x.gone with
    | true => simp [gone hg]
    | false =>
      refine ⟨?_, rfl⟩
      simp only [Bool.false_eq_true, if_false]
      rw [C87_equality hs _ _ (inner hg).1 hy, (inner hg).2]
      cases ending x.inner <;> rfl
  | valueless k u =>
    obtain ⟨u', hu⟩ := own_of_gone hy rfl
    rw [eq20_right L x _ hu (by rw [hx, hu]; exact select_derived_own ..), eq20_left L _ x hu (by rw [hx, hu]; exact select_own_derived ..)]
    refine ⟨?_, rfl⟩
    cases ending x <;> rfl
  | engaged k v ih =>
    obtain ⟨u', hu⟩ := own_of_gone hy rfl
    rw [eq20_right L x _ hu (by rw [hx, hu]; exact select_derived_own ..), eq20_left L _ x hu (by rw [hx, hu]; exact select_own_derived ..)]
    refine ⟨?_, rfl⟩
    simp only [Val.gone, Val.inner, Bool.false_eq_true, if_false]
    rw [(ih hy.2).2, (ih hy.2).1]
    simp only [ending]
    cases ending x <;> cases ending v <;> rfl

/-- Values that are not ordered, like NaN: `x <= 1.0` for an `indirect<indirect<double>>` that holds one is true, although for an `indirect<double>` it is
false.  (`synth_three_way` takes what is neither less nor greater for equivalent where the owned types have no `<=>` with each other.) -/
theorem C87_unordered_violation : ∃ (L : Leaf Unit Unit), L.cmp () () = .unordered ∧ (∀ a b, L.three a b = true) ∧
    ev20 L .le (.engaged .self (.plain ())) (.plain ()) = some false ∧
    ev20 L .le (.engaged .self (.engaged .self (.plain ()))) (.plain ()) = some true := by
  let L : Leaf Unit Unit := ⟨fun _ => (), fun _ _ => false, fun _ _ => true, fun _ _ => .unordered, fun _ _ => true, fun _ _ => false, fun _ _ => false,
    fun _ _ => false, fun _ _ => false⟩
  have h1 : cmp20 L (.engaged .self (.plain ())) (.plain ()) = some .unordered := by
    rw [cmp20_left L _ _ rfl]
    simp only [Val.gone, Val.inner, Bool.false_eq_true, if_false]
    unfold synth20
    rw [cmp20_plain]
    rfl
  have h2 : cmp20 L (.plain ()) (.engaged .self (.plain ())) = some .unordered := by
    rw [cmp20_right L _ _ rfl]
    simp only [Val.gone, Val.inner, Bool.false_eq_true, if_false]
    unfold synth20
    rw [cmp20_plain]
    rfl
  refine ⟨L, rfl, fun _ _ => rfl, ?_, ?_⟩
  · simp only [ev20, h1]; rfl
  · simp only [ev20]
    rw [cmp20_left L _ _ rfl]
    simp only [Val.gone, Val.inner, Bool.false_eq_true, if_false]
    unfold synth20
    rw [h1, h2]
    rfl

end

/-! ### The hypotheses are met -/

section Examples

/-- Natural numbers as plain values, of one type. -/
private def nats : Leaf Unit Nat where
  type _ := ()
  eq a b := a == b
  three _ _ := true
  cmp a b := if a < b then .less else if b < a then .greater else .equivalent
  ne a b := a != b
  lt a b := decide (a < b)
  gt a b := decide (b < a)
  le a b := decide (a ≤ b)
  ge a b := decide (b ≤ a)

private theorem nats_ordered : OrderedBy nats nats.cmp where
  total a b := by
    simp only [nats]
    split
    · nofun
    · split <;> nofun
  swap a b := by
    simp only [nats]
    rcases Nat.lt_trichotomy a b with h | h | h
    · simp [h, Nat.lt_asymm h, reverse]
    · subst h; simp [reverse]
    · simp [h, Nat.lt_asymm h, reverse]
  lt a b := by
    simp only [nats]
    rcases Nat.lt_trichotomy a b with h | h | h
    · simp [h, isLt]
    · subst h; simp [isLt]
    · simp [h, Nat.lt_asymm h, isLt]
  cmp _ _ _ := rfl

private theorem nats_symm (a b : Nat) : nats.eq a b = nats.eq b a := by
  simp only [nats]; rw [Bool.eq_iff_iff]; simp only [beq_iff_eq]; exact eq_comm

/-- `indirect<indirect<T>>` holding 3, `indirect<T>` holding 5, and one that holds a valueless `indirect<T>`. -/
private def x3 : Val Unit Nat := .engaged .self (.engaged .self (.plain 3))
private def y5 : Val Unit Nat := .engaged .self (.plain 5)
private def gone2 : Val Unit Nat := .engaged .self (.valueless .self (.plain ()))

example : Plain (x3.ty nats) ∧ Plain (y5.ty nats) ∧ Plain (gone2.ty nats) :=
  ⟨⟨rfl, rfl, trivial⟩, ⟨rfl, trivial⟩, ⟨rfl, rfl, trivial⟩⟩

example : ev20 nats .lt x3 y5 = some true ∧ ev20 nats .eq x3 y5 = some false :=
  have h := C87_operators_partial nats_ordered nats_symm x3 y5 ⟨rfl, rfl, trivial⟩ ⟨rfl, trivial⟩ (Or.inl rfl)
  ⟨h.2.2.1, h.1⟩

example : ev14 nats .ge gone2 y5 = some false := C87_cxx14 (L := nats) .ge gone2 y5 ⟨rfl, rfl, trivial⟩ ⟨rfl, trivial⟩

/-- Of the same type, both holding a valueless `indirect`. -/
example : cmp20 nats gone2 gone2 = some .equivalent := C87_three_way_same_type (L := nats) (fun _ => rfl) gone2 gone2 ⟨rfl, rfl, trivial⟩ rfl

/-- An object of a derived class that holds 5 equals an `indirect` that does. -/
example : eq20 nats (.engaged (.derived 1) (.plain 5)) y5 = some true :=
  (C87_derived_exactly nats_symm (.engaged (.derived 1) (.plain 5)) y5 (d := 1) (t := .plain ()) rfl trivial ⟨rfl, trivial⟩).1

example : compiles .cxx20 (fun _ _ : Unit => true) (x3.ty nats) (y5.ty nats) = true :=
  C87_compiles .cxx20 (fun _ _ => rfl) _ _ ⟨rfl, rfl, trivial⟩ ⟨rfl, trivial⟩

example : Spec.Equivalence nats.eq where
  refl a := by simp [nats]
  symm a b h := by simp_all [nats]
  trans a b c h h' := by simp_all [nats]

end Examples
end Verif.Props
