import Verif.Demo
import Verif.Proofs.Compare

/-!
# C24 – C29: comparison and hashing of `indirect`

A comparison is run in a reachable state `s`; `Indirect.ref x` is the object at `x`, seen through
`valueless_after_move()` and `*x`.  Objects of two different types live in two states, `s` and `t`, and are compared
in the pair `(s, t)`.  `Spec.valueOf (abs s) x` is the value owned by `x`, if any.  A result `.ok r s` says that the
comparison returns `r` and changes nothing; in particular it has not dereferenced a valueless object, because that is
undefined behaviour, another outcome (`C20`).
-/

set_option autoImplicit false
set_option linter.unusedSectionVars false
set_option linter.unusedSimpArgs false

namespace Verif.Props
open Verif Indirect Demo

section
variable {L A R V X : Type} [DecidableEq L] [DecidableEq R]
variable {L' A' R' W X' : Type} [DecidableEq L'] [DecidableEq R']
variable {tr : ATraits A R} {T : TSpec V X} {s : St L A R (Obj V)} {x y z : L} {v : V}
variable {tr' : ATraits A' R'} {T' : TSpec W X'} {t : St L' A' R' (Obj W)} {y' : L'}

/-- Two objects of different types. -/
def one (x : L) : Ref (St L A R (Obj V) × St L' A' R' (Obj W)) V := (ref x).fst
/-- Two objects of different types. -/
def other (y : L') : Ref (St L A R (Obj V) × St L' A' R' (Obj W)) W := (ref y).snd

/-! ## C24 -/

/-- `x == y` for objects of the same type: both valueless, or both engaged with equal values. -/
theorem C24_equal (S : tr.Sound) (h : Reach tr T s) (f : V → V → Bool)
    (hx : Spec.Live (abs s) x) (hy : Spec.Live (abs s) y) :
    ∃ b, Compare20.eq (pureOp f) (ref x) (ref y) s = .ok b s ∧
      (b = true ↔ (Spec.valueOf (abs s) x = none ∧ Spec.valueOf (abs s) y = none) ∨
        ∃ v w, Spec.valueOf (abs s) x = some v ∧ Spec.valueOf (abs s) y = some w ∧ f v w = true) := by
  refine ⟨_, eq20_eval (ref_views (h.inv S) hx) (ref_views (h.inv S) hy) f, ?_⟩
  cases Spec.valueOf (abs s) x <;> cases Spec.valueOf (abs s) y <;> simp [Spec.optEq]

/-- `x == y` for `indirect`s of different types and allocators. -/
theorem C24_equal_mixed_types (S : tr.Sound) (h : Reach tr T s) (S' : tr'.Sound) (h' : Reach tr' T' t)
    (f : V → W → Bool) (hx : Spec.Live (abs s) x) (hy : Spec.Live (abs t) y') :
    ∃ b, Compare20.eq (pureOp f) (one x) (other y') (s, t) = .ok b (s, t) ∧
      (b = true ↔ (Spec.valueOf (abs s) x = none ∧ Spec.valueOf (abs t) y' = none) ∨
        ∃ v w, Spec.valueOf (abs s) x = some v ∧ Spec.valueOf (abs t) y' = some w ∧ f v w = true) := by
  refine ⟨_, eq20_eval (ref_views (h.inv S) hx).fst (ref_views (h'.inv S') hy).snd f, ?_⟩
  cases Spec.valueOf (abs s) x <;> cases Spec.valueOf (abs t) y' <;> simp [Spec.optEq]

/-- Whatever `==` of the values does, and also if it throws: if one of the objects is valueless it is not called, the
answer is whether both are, and nothing changes; otherwise it is called once, for the two values, and what it does is
what happens. -/
theorem C24_equal_exact (S : tr.Sound) (h : Reach tr T s) (f : V → V → M (St L A R (Obj V)) Bool)
    (hx : Spec.Live (abs s) x) (hy : Spec.Live (abs s) y) :
    (∀ v w, Spec.valueOf (abs s) x = some v → Spec.valueOf (abs s) y = some w →
      Compare20.eq f (ref x) (ref y) s = f v w s) ∧
    (Spec.valueOf (abs s) x = none ∨ Spec.valueOf (abs s) y = none →
      ∃ b, Compare20.eq f (ref x) (ref y) s = .ok b s ∧
        (b = true ↔ Spec.valueOf (abs s) x = none ∧ Spec.valueOf (abs s) y = none)) := by
  rw [eq20_run (ref_views (h.inv S) hx) (ref_views (h.inv S) hy) f]
  cases Spec.valueOf (abs s) x <;> cases Spec.valueOf (abs s) y <;> simp [Spec.onValues]

/-- If `==` of the values is an equivalence relation, so is `==` of the objects. -/
theorem C24_equivalence (S : tr.Sound) (h : Reach tr T s) {f : V → V → Bool} (hf : Spec.Equivalence f)
    (hx : Spec.Live (abs s) x) (hy : Spec.Live (abs s) y) (hz : Spec.Live (abs s) z) :
    Compare20.eq (pureOp f) (ref x) (ref x) s = .ok true s ∧
    (Compare20.eq (pureOp f) (ref x) (ref y) s = .ok true s → Compare20.eq (pureOp f) (ref y) (ref x) s = .ok true s) ∧
    (Compare20.eq (pureOp f) (ref x) (ref y) s = .ok true s → Compare20.eq (pureOp f) (ref y) (ref z) s = .ok true s →
      Compare20.eq (pureOp f) (ref x) (ref z) s = .ok true s) := by
  have E := Spec.optEq_equivalence hf
  have vx := ref_views (h.inv S) hx
  have vy := ref_views (h.inv S) hy
  have vz := ref_views (h.inv S) hz
  rw [eq20_eval vx vx, eq20_eval vx vy, eq20_eval vy vx, eq20_eval vy vz, eq20_eval vx vz]
  simp only [Res.ok.injEq, and_true]
  exact ⟨E.refl _, E.symm _ _, E.trans _ _ _⟩

/-! ## C25 -/

/-- `x <=> y`: valueless is equivalent to valueless and less than engaged; engaged objects compare as their values. -/
theorem C25_three_way (S : tr.Sound) (h : Reach tr T s) (o : Spec.Order V V)
    (hx : Spec.Live (abs s) x) (hy : Spec.Live (abs s) y) :
    Compare20.cmp o.ops (ref x) (ref y) s =
      .ok (Spec.optCmp o.three (Spec.valueOf (abs s) x) (Spec.valueOf (abs s) y)) s :=
  cmp20_eval (ref_views (h.inv S) hx) (ref_views (h.inv S) hy) o

/-- The same for `indirect`s of different types and allocators. -/
theorem C25_three_way_mixed_types (S : tr.Sound) (h : Reach tr T s) (S' : tr'.Sound) (h' : Reach tr' T' t)
    (o : Spec.Order V W) (hx : Spec.Live (abs s) x) (hy : Spec.Live (abs t) y') :
    Compare20.cmp o.ops (one x) (other y') (s, t) =
      .ok (Spec.optCmp o.three (Spec.valueOf (abs s) x) (Spec.valueOf (abs t) y')) (s, t) :=
  cmp20_eval (ref_views (h.inv S) hx).fst (ref_views (h'.inv S') hy).snd o

/-- Whatever the comparison of the values does, and also if it throws: if one of the objects is valueless it is not
called and nothing changes; otherwise what it does for the two values is what happens. -/
theorem C25_three_way_exact (S : tr.Sound) (h : Reach tr T s) (o : Ordered (St L A R (Obj V)) V V)
    (hx : Spec.Live (abs s) x) (hy : Spec.Live (abs s) y) :
    (∀ v w, Spec.valueOf (abs s) x = some v → Spec.valueOf (abs s) y = some w →
      Compare20.cmp o (ref x) (ref y) s = synthThreeWay o v w s) ∧
    (Spec.valueOf (abs s) x = none → Spec.valueOf (abs s) y = none →
      Compare20.cmp o (ref x) (ref y) s = .ok .equivalent s) ∧
    (∀ w, Spec.valueOf (abs s) x = none → Spec.valueOf (abs s) y = some w →
      Compare20.cmp o (ref x) (ref y) s = .ok .less s) ∧
    (∀ v, Spec.valueOf (abs s) x = some v → Spec.valueOf (abs s) y = none →
      Compare20.cmp o (ref x) (ref y) s = .ok .greater s) := by
  rw [cmp20_run (ref_views (h.inv S) hx) (ref_views (h.inv S) hy) o]
  cases Spec.valueOf (abs s) x <;> cases Spec.valueOf (abs s) y <;> simp [Spec.onValues, Cmp.ofBool]

/-- If the comparison of values is an order, so is the comparison of the objects of a state; it is total if the
comparison of values is. -/
theorem C25_order (S : tr.Sound) (h : Reach tr T s) {o : Spec.Order V V} (ho : Spec.Lawful o.three) :
    ∃ c : {x : L // Spec.Live (abs s) x} → {x : L // Spec.Live (abs s) x} → Cmp,
      (∀ x y, Compare20.cmp o.ops (ref x.1) (ref y.1) s = .ok (c x y) s) ∧ Spec.Lawful c ∧
      (Spec.Total o.three → Spec.Total c) := by
  have E := Spec.optCmp_lawful ho
  refine ⟨_, fun x y => C25_three_way S h o x.2 y.2, ⟨?_, ?_, ?_, ?_⟩, ?_⟩
  · intro a; exact E.refl _
  · intro a b; exact E.reverse _ _
  · intro a b c; exact E.trans _ _ _
  · intro a b c; exact E.congr _ _ _
  · intro ht a b; exact Spec.optCmp_total ht _ _

/-- The relational operators, which the language derives from `<=>`, fit together: `x < y` is `y > x`, `x <= y` is
`y >= x`, `x <= y` is `x < y` or equivalence, at most one of `x < y`, equivalence and `x > y` holds, and `x <= y` is
the negation of `x > y` if the order of the values is total. -/
theorem C25_operators (S : tr.Sound) (h : Reach tr T s) {o : Spec.Order V V} (ho : Spec.Lawful o.three)
    (hx : Spec.Live (abs s) x) (hy : Spec.Live (abs s) y) :
    ∃ c d, Compare20.cmp o.ops (ref x) (ref y) s = .ok c s ∧ Compare20.cmp o.ops (ref y) (ref x) s = .ok d s ∧
      Spec.isLt c = Spec.isGt d ∧ Spec.isLe c = Spec.isGe d ∧
      (Spec.isLe c = true ↔ Spec.isLt c = true ∨ c = .equivalent) ∧
      ¬(Spec.isLt c = true ∧ Spec.isGt c = true) ∧
      (Spec.Total o.three → Spec.isLe c = !Spec.isGt c ∧ Spec.isGe c = !Spec.isLt c) := by
  have E := Spec.optCmp_lawful ho
  refine ⟨_, _, C25_three_way S h o hx hy, C25_three_way S h o hy hx, ?_⟩
  rw [E.reverse (Spec.valueOf (abs s) x) (Spec.valueOf (abs s) y)]
  have HT : Spec.Total o.three → _ := fun ht => Spec.optCmp_total ht (Spec.valueOf (abs s) x)
    (Spec.valueOf (abs s) y)
  revert HT
  generalize Spec.optCmp o.three (Spec.valueOf (abs s) x) (Spec.valueOf (abs s) y) = c
  cases c with
  | unordered => intro HT; exact ⟨rfl, rfl, by decide, by decide, fun h => absurd rfl (HT h)⟩
  | _ => intro _; exact ⟨rfl, rfl, by decide, by decide, fun _ => ⟨rfl, rfl⟩⟩

/-- `==` and `<=>` agree if they agree for values. -/
theorem C25_consistent_with_equal (S : tr.Sound) (h : Reach tr T s) {o : Spec.Order V V} {f : V → V → Bool}
    (hf : ∀ a b, f a b = true ↔ o.three a b = .equivalent)
    (hx : Spec.Live (abs s) x) (hy : Spec.Live (abs s) y) :
    Compare20.eq (pureOp f) (ref x) (ref y) s = .ok true s ↔ Compare20.cmp o.ops (ref x) (ref y) s = .ok .equivalent s := by
  have vx := ref_views (h.inv S) hx
  have vy := ref_views (h.inv S) hy
  rw [eq20_eval vx vy, cmp20_eval vx vy]
  simp only [Res.ok.injEq, and_true]
  cases Spec.valueOf (abs s) x <;> cases Spec.valueOf (abs s) y <;> simp [Spec.optEq, Spec.optCmp, hf]

/-! ## C26 -/

/-- Comparing with a plain value: a valueless object is not equal to it and less than it, an engaged object compares
as its value. -/
theorem C26_with_value (S : tr.Sound) (h : Reach tr T s) (f : V → W → Bool) (o : Spec.Order V W) (u : W)
    (hx : Spec.Live (abs s) x) :
    (Spec.valueOf (abs s) x = none →
      Compare20.eqU (pureOp f) (ref x) u s = .ok false s ∧ Compare20.cmpU o.ops (ref x) u s = .ok .less s) ∧
    (∀ v, Spec.valueOf (abs s) x = some v →
      Compare20.eqU (pureOp f) (ref x) u s = .ok (f v u) s ∧
        Compare20.cmpU o.ops (ref x) u s = .ok (o.three v u) s) := by
  have vx := ref_views (h.inv S) hx
  rw [eqU20_eval vx, cmpU20_eval vx]
  constructor
  · intro hv; simp [hv, Spec.optEq, Spec.optCmp]
  · intro v hv; simp [hv, Spec.optEq, Spec.optCmp]

/-- Whatever the comparisons of the values do, and also if they throw. -/
theorem C26_with_value_exact (S : tr.Sound) (h : Reach tr T s) (f : V → W → M (St L A R (Obj V)) Bool)
    (o : Ordered (St L A R (Obj V)) V W) (u : W) (hx : Spec.Live (abs s) x) :
    (Spec.valueOf (abs s) x = none →
      Compare20.eqU f (ref x) u s = .ok false s ∧ Compare20.cmpU o (ref x) u s = .ok .less s) ∧
    (∀ v, Spec.valueOf (abs s) x = some v →
      Compare20.eqU f (ref x) u s = f v u s ∧ Compare20.cmpU o (ref x) u s = synthThreeWay o v u s) := by
  have vx := ref_views (h.inv S) hx
  rw [eqU20_run vx, cmpU20_run vx]
  constructor
  · intro hv; simp [hv, Spec.onValues, Cmp.ofBool]
  · intro v hv; simp [hv, Spec.onValues]

/-- Comparing with a plain value gives the same as comparing with an engaged object that owns this value. -/
theorem C26_same_as_engaged (S : tr.Sound) (h : Reach tr T s) (S' : tr'.Sound) (h' : Reach tr' T' t)
    (f : V → W → Bool) (o : Spec.Order V W) {u : W}
    (hx : Spec.Live (abs s) x) (hy : Spec.valueOf (abs t) y' = some u) :
    (∃ b, Compare20.eqU (pureOp f) (ref x) u s = .ok b s ∧
      Compare20.eq (pureOp f) (one x) (other y') (s, t) = .ok b (s, t)) ∧
    (∃ c, Compare20.cmpU o.ops (ref x) u s = .ok c s ∧
      Compare20.cmp o.ops (one x) (other y') (s, t) = .ok c (s, t)) := by
  have vx := ref_views (h.inv S) hx
  have vy := ref_views (h'.inv S') (x := y') (by
    unfold Spec.Live; unfold Spec.valueOf at hy
    cases hb : abs t y' with
    | none => simp [hb] at hy
    | some k => exact ⟨k, rfl⟩)
  rw [hy] at vy
  exact ⟨⟨_, eqU20_eval vx u f, eq20_eval vx.fst vy.snd f⟩, ⟨_, cmpU20_eval vx u o, cmp20_eval vx.fst vy.snd o⟩⟩

/-- The language rewrites `u < x` to `(x <=> u) > 0`, and so on for the other operators.  What this gives is what
comparing the plain value with the owned value gives: a valueless object is less than every value. -/
theorem C26_reversed (S : tr.Sound) (h : Reach tr T s) {o : Spec.Order V W} {o' : Spec.Order W V}
    (hm : ∀ a b, o'.three b a = Spec.reverse (o.three a b)) (u : W) (hx : Spec.Live (abs s) x) :
    ∃ c, Compare20.cmpU o.ops (ref x) u s = .ok c s ∧
      Spec.reverse c = Spec.optCmp o'.three (some u) (Spec.valueOf (abs s) x) := by
  refine ⟨_, cmpU20_eval (ref_views (h.inv S) hx) u o, ?_⟩
  cases Spec.valueOf (abs s) x <;> simp [Spec.optCmp, Spec.reverse, hm]

/-! ## C27 -/

/-- For types with `<=>`, `synth_three_way` is this operator. -/
theorem C27_three_way {σ : Type} (o : Ordered σ V W) {f : V → W → M σ Cmp} (hf : o.threeWay = some f) (a : V) (b : W) :
    synthThreeWay o a b = f a b := by simp [synthThreeWay, hf]

/-- For other types it is computed from `<`: the result for functions that do not throw. -/
theorem C27_from_less {σ : Type} (s : σ) (o : Spec.Order V W) (hf : o.threeWay = none) (a : V) (b : W) :
    ∃ c, synthThreeWay o.ops a b s = .ok c s ∧
      (c = .less ↔ o.lt a b = true) ∧
      (c = .greater ↔ o.lt a b = false ∧ o.gt a b = true) ∧
      (c = .equivalent ↔ o.lt a b = false ∧ o.gt a b = false) ∧
      c ≠ .unordered := by
  refine ⟨_, synth_eval o a b, ?_⟩
  cases h1 : o.lt a b <;> cases h2 : o.gt a b <;> simp [Spec.Order.three, hf, h1, h2]

/-- If `<` throws, so does the comparison, and `b < a` is not asked for if `a < b` already decides. -/
theorem C27_from_less_throws {σ : Type} {s s' : σ} (o : Ordered σ V W) (hf : o.threeWay = none) (a : V) (b : W) :
    (∀ e, o.lt a b s = .threw e s' → synthThreeWay o a b s = .threw e s') ∧
    (o.lt a b s = .ok true s' → synthThreeWay o a b s = .ok .less s') ∧
    (∀ e s'', o.lt a b s = .ok false s' → o.gt a b s' = .threw e s'' → synthThreeWay o a b s = .threw e s'') := by
  refine ⟨fun e h => ?_, fun h => ?_, fun e s'' h1 h2 => ?_⟩
  · simp [synthThreeWay, hf, M.bind_eq, h]
  · simp [synthThreeWay, hf, M.bind_eq, h]
  · simp [synthThreeWay, hf, M.bind_eq, h1, h2]

/-- `synth_three_way` for functions that do not throw. -/
theorem C27_value {σ : Type} (s : σ) (o : Spec.Order V W) (a : V) (b : W) :
    synthThreeWay o.ops a b s = .ok (o.three a b) s := synth_eval o a b

private theorem three_from_less (o : Spec.Order V W) (hf : o.threeWay = none) (a : V) (b : W) :
    (o.three a b = .less ↔ o.lt a b = true) ∧
    (o.three a b = .greater ↔ o.lt a b = false ∧ o.gt a b = true) ∧
    (o.three a b = .equivalent ↔ o.lt a b = false ∧ o.gt a b = false) ∧
    o.three a b ≠ .unordered := by
  cases h1 : o.lt a b <;> cases h2 : o.gt a b <;> simp [Spec.Order.three, hf, h1, h2]

/-- If `<` is a strict weak order, the result is a total order. -/
theorem C27_weak_order {lt : V → V → Bool} (h : Spec.StrictWeak lt) :
    Spec.Lawful (Spec.Order.three ⟨none, lt, fun a b => lt b a⟩) ∧
    Spec.Total (Spec.Order.three ⟨none, lt, fun a b => lt b a⟩) := by
  have asymm : ∀ a b, lt a b = true → lt b a = false := by
    intro a b hab
    cases hba : lt b a with
    | false => rfl
    | true => have := h.trans _ _ _ hab hba; rw [h.irrefl] at this; cases this
  refine ⟨⟨?_, ?_, ?_, ?_⟩, ?_⟩
  · intro a; simp [Spec.Order.three, h.irrefl]
  · intro a b
    cases h1 : lt a b with
    | true => simp [Spec.Order.three, h1, asymm _ _ h1, Spec.reverse]
    | false => cases h2 : lt b a <;> simp [Spec.Order.three, h1, h2, Spec.reverse]
  · intro a b c h1 h2
    rw [(three_from_less _ rfl a b).1] at h1
    rw [(three_from_less _ rfl b c).1] at h2
    rw [(three_from_less _ rfl a c).1]
    exact h.trans _ _ _ h1 h2
  · intro a b c h1
    obtain ⟨h1, h2⟩ := (three_from_less _ rfl a b).2.2.1.1 h1
    simp only at h1 h2
    have e1 : lt a c = lt b c := by
      cases h3 : lt b c with
      | true =>
        cases h4 : lt a c with
        | true => rfl
        | false =>
          cases h5 : lt c a with
          | true => have := h.trans _ _ _ h3 h5; rw [this] at h2; cases h2
          | false => have := (h.incomp b a c h2 h1 h4 h5).1; rw [h3] at this; cases this
      | false =>
        cases h4 : lt a c with
        | false => rfl
        | true =>
          cases h5 : lt c b with
          | true => have := h.trans _ _ _ h4 h5; rw [this] at h1; cases h1
          | false => have := (h.incomp a b c h1 h2 h3 h5).1; rw [h4] at this; cases this
    have e2 : lt c a = lt c b := by
      cases h3 : lt c b with
      | true =>
        cases h4 : lt c a with
        | true => rfl
        | false =>
          cases h5 : lt a c with
          | true => have := h.trans _ _ _ h5 h3; rw [this] at h1; cases h1
          | false => have := (h.incomp b a c h2 h1 h5 h4).2; rw [h3] at this; cases this
      | false =>
        cases h4 : lt c a with
        | false => rfl
        | true =>
          cases h5 : lt b c with
          | true => have := h.trans _ _ _ h5 h4; rw [this] at h2; cases h2
          | false => have := (h.incomp a b c h1 h2 h5 h3).2; rw [h4] at this; cases this
    simp [Spec.Order.three, e1, e2]
  · intro a b; exact (three_from_less _ rfl a b).2.2.2

/-! ## C28 -/

/-- An engaged object hashes as its value, every valueless object hashes to the same constant; in either header.  What
the hash function of the values does, throwing included, is what happens. -/
theorem C28_hash {H : Type} (S : tr.Sound) (h : Reach tr T s) (n : H) (hash : V → M (St L A R (Obj V)) H)
    (hx : Spec.Live (abs s) x) :
    (Spec.valueOf (abs s) x = none →
      Compare20.hash n hash (ref x) s = .ok n s ∧ Compare14.hash n hash (ref x) s = .ok n s) ∧
    (∀ v, Spec.valueOf (abs s) x = some v →
      Compare20.hash n hash (ref x) s = hash v s ∧ Compare14.hash n hash (ref x) s = hash v s) := by
  have vx := ref_views (h.inv S) hx
  rw [hash20_run vx, hash14_run vx]
  exact ⟨fun hv => by simp [hv], fun v hv => by simp [hv]⟩

/-- Equal objects have equal hashes, if this is true of values. -/
theorem C28_equal_hash {H : Type} (S : tr.Sound) (h : Reach tr T s) (n : H) (hash : V → H) {f : V → V → Bool}
    (hf : ∀ v w, f v w = true → hash v = hash w)
    (hx : Spec.Live (abs s) x) (hy : Spec.Live (abs s) y)
    (he : Compare20.eq (pureOp f) (ref x) (ref y) s = .ok true s) :
    ∃ k, Compare20.hash n (fun v => pure (hash v)) (ref x) s = .ok k s ∧
      Compare20.hash n (fun v => pure (hash v)) (ref y) s = .ok k s ∧
      Compare14.hash n (fun v => pure (hash v)) (ref x) s = .ok k s ∧
      Compare14.hash n (fun v => pure (hash v)) (ref y) s = .ok k s := by
  have vx := ref_views (h.inv S) hx
  have vy := ref_views (h.inv S) hy
  rw [eq20_eval vx vy] at he
  rw [hash20_run vx, hash20_run vy, hash14_run vx, hash14_run vy]
  revert he
  cases Spec.valueOf (abs s) x <;> cases Spec.valueOf (abs s) y <;> simp [Spec.optEq]
  exact fun hv => (hf _ _ hv).symm

/-! ## C29 -/

/-- The six operators of the C++14 header: valueless is equal to valueless and less than engaged, engaged objects
compare as their values. -/
theorem C29_operators (S : tr.Sound) (h : Reach tr T s) (f : Spec.Six V V)
    (hx : Spec.Live (abs s) x) (hy : Spec.Live (abs s) y) {a b : Option V}
    (ha : Spec.valueOf (abs s) x = a) (hb : Spec.valueOf (abs s) y = b) :
    Compare14.eq (pureOp f.eq) (ref x) (ref y) s = .ok (Spec.optEq f.eq a b) s ∧
    Compare14.ne (pureOp f.ne) (ref x) (ref y) s = .ok (!Spec.optEq (fun v w => !f.ne v w) a b) s ∧
    Compare14.lt (pureOp f.lt) (ref x) (ref y) s = .ok (Spec.optLt f.lt a b) s ∧
    Compare14.gt (pureOp f.gt) (ref x) (ref y) s = .ok (Spec.optLt (fun w v => f.gt v w) b a) s ∧
    Compare14.le (pureOp f.le) (ref x) (ref y) s = .ok (Spec.optLe f.le a b) s ∧
    Compare14.ge (pureOp f.ge) (ref x) (ref y) s = .ok (Spec.optLe (fun w v => f.ge v w) b a) s := by
  subst ha hb
  have vx := ref_views (h.inv S) hx
  have vy := ref_views (h.inv S) hy
  exact ⟨eq14_eval vx vy _, ne14_eval vx vy _, lt14_eval vx vy _, gt14_eval vx vy _, le14_eval vx vy _,
    ge14_eval vx vy _⟩

/-- Whatever the operators of the values do, and also if they throw: `r` says what each of the six answers if an object
is valueless, which depends only on which of them is. -/
theorem C29_operators_exact (S : tr.Sound) (h : Reach tr T s) (f : V → V → M (St L A R (Obj V)) Bool)
    (hx : Spec.Live (abs s) x) (hy : Spec.Live (abs s) y) {a b : Option V}
    (ha : Spec.valueOf (abs s) x = a) (hb : Spec.valueOf (abs s) y = b) :
    Compare14.eq f (ref x) (ref y) s = Spec.onValues (fun l r => l == r) f a b s ∧
    Compare14.ne f (ref x) (ref y) s = Spec.onValues (fun l r => l != r) f a b s ∧
    Compare14.lt f (ref x) (ref y) s = Spec.onValues (fun l r => !l && r) f a b s ∧
    Compare14.gt f (ref x) (ref y) s = Spec.onValues (fun l r => l && !r) f a b s ∧
    Compare14.le f (ref x) (ref y) s = Spec.onValues (fun l _ => !l) f a b s ∧
    Compare14.ge f (ref x) (ref y) s = Spec.onValues (fun _ r => !r) f a b s := by
  subst ha hb
  have vx := ref_views (h.inv S) hx
  have vy := ref_views (h.inv S) hy
  exact ⟨eq14_run vx vy _, ne14_run vx vy _, lt14_run vx vy _, gt14_run vx vy _, le14_run vx vy _,
    ge14_run vx vy _⟩

/-- If `!=`, `<=` and `>=` of values are the negations of `==`, `>` and `<`, so are those of the objects. -/
theorem C29_negations (S : tr.Sound) (h : Reach tr T s) {f : Spec.Six V V} (hf : f.Negations)
    (hx : Spec.Live (abs s) x) (hy : Spec.Live (abs s) y) :
    (∃ b, Compare14.eq (pureOp f.eq) (ref x) (ref y) s = .ok b s ∧
      Compare14.ne (pureOp f.ne) (ref x) (ref y) s = .ok (!b) s) ∧
    (∃ b, Compare14.gt (pureOp f.gt) (ref x) (ref y) s = .ok b s ∧
      Compare14.le (pureOp f.le) (ref x) (ref y) s = .ok (!b) s) ∧
    (∃ b, Compare14.lt (pureOp f.lt) (ref x) (ref y) s = .ok b s ∧
      Compare14.ge (pureOp f.ge) (ref x) (ref y) s = .ok (!b) s) := by
  obtain ⟨h1, h2, h3, h4, h5, h6⟩ := C29_operators S h f hx hy rfl rfl
  refine ⟨⟨_, h1, ?_⟩, ⟨_, h4, ?_⟩, ⟨_, h3, ?_⟩⟩
  · rw [h2]; simp [hf.ne]
  · rw [h5]
    cases Spec.valueOf (abs s) x <;> cases Spec.valueOf (abs s) y <;> simp [Spec.optLt, Spec.optLe, hf.le]
  · rw [h6]
    cases Spec.valueOf (abs s) x <;> cases Spec.valueOf (abs s) y <;> simp [Spec.optLt, Spec.optLe, hf.ge]

/-- `x < y` is `y > x` and `x <= y` is `y >= x`, and `==` and `!=` are symmetric, if this is true of values. -/
theorem C29_mirrors (S : tr.Sound) (h : Reach tr T s) {f : Spec.Six V V} (hf : f.Mirrors f)
    (hx : Spec.Live (abs s) x) (hy : Spec.Live (abs s) y) :
    Compare14.eq (pureOp f.eq) (ref x) (ref y) s = Compare14.eq (pureOp f.eq) (ref y) (ref x) s ∧
    Compare14.ne (pureOp f.ne) (ref x) (ref y) s = Compare14.ne (pureOp f.ne) (ref y) (ref x) s ∧
    Compare14.lt (pureOp f.lt) (ref x) (ref y) s = Compare14.gt (pureOp f.gt) (ref y) (ref x) s ∧
    Compare14.le (pureOp f.le) (ref x) (ref y) s = Compare14.ge (pureOp f.ge) (ref y) (ref x) s := by
  obtain ⟨h1, h2, h3, h4, h5, h6⟩ := C29_operators S h f hx hy rfl rfl
  obtain ⟨g1, g2, g3, g4, g5, g6⟩ := C29_operators S h f hy hx rfl rfl
  rw [h1, g1, h2, g2, h3, g4, h5, g6]
  refine ⟨?_, ?_, ?_, ?_⟩
  · cases Spec.valueOf (abs s) x <;> cases Spec.valueOf (abs s) y <;> simp [Spec.optEq]; exact hf.eq _ _
  · cases Spec.valueOf (abs s) x <;> cases Spec.valueOf (abs s) y <;> simp [Spec.optEq]; exact hf.ne _ _
  · cases Spec.valueOf (abs s) x <;> cases Spec.valueOf (abs s) y <;> simp [Spec.optLt]; exact hf.lt _ _
  · cases Spec.valueOf (abs s) x <;> cases Spec.valueOf (abs s) y <;> simp [Spec.optLe]; exact hf.le _ _

/-- The C++14 operators answer as the operators the language derives from `==` and `<=>` of the C++20 header, if this
is true of the operators of values. -/
theorem C29_same_as_cxx20 (S : tr.Sound) (h : Reach tr T s) {f : Spec.Six V V} {eq : V → V → Bool} {o : Spec.Order V V}
    (hf : f.AgreesWith eq o.three) (hx : Spec.Live (abs s) x) (hy : Spec.Live (abs s) y) :
    ∃ b c, Compare20.eq (pureOp eq) (ref x) (ref y) s = .ok b s ∧ Compare20.cmp o.ops (ref x) (ref y) s = .ok c s ∧
      Compare14.eq (pureOp f.eq) (ref x) (ref y) s = .ok b s ∧
        Compare14.ne (pureOp f.ne) (ref x) (ref y) s = .ok (!b) s ∧
      Compare14.lt (pureOp f.lt) (ref x) (ref y) s = .ok (Spec.isLt c) s ∧
      Compare14.gt (pureOp f.gt) (ref x) (ref y) s = .ok (Spec.isGt c) s ∧
      Compare14.le (pureOp f.le) (ref x) (ref y) s = .ok (Spec.isLe c) s ∧
      Compare14.ge (pureOp f.ge) (ref x) (ref y) s = .ok (Spec.isGe c) s := by
  have vx := ref_views (h.inv S) hx
  have vy := ref_views (h.inv S) hy
  obtain ⟨h1, h2, h3, h4, h5, h6⟩ := C29_operators S h f hx hy rfl rfl
  refine ⟨_, _, eq20_eval vx vy eq, cmp20_eval vx vy o, ?_⟩
  rw [h1, h2, h3, h4, h5, h6]
  cases Spec.valueOf (abs s) x <;> cases Spec.valueOf (abs s) y <;>
    simp [Spec.optEq, Spec.optCmp, Spec.optLt, Spec.optLe, hf.eq, hf.ne, hf.lt, hf.gt, hf.le, hf.ge] <;> decide

/-- The twelve operators between an object and a plain value answer as if the plain value were in an engaged object:
the six with the object on the left … -/
theorem C29_mixed_left (S : tr.Sound) (h : Reach tr T s) (f : Spec.Six V W) (u : W) (hx : Spec.Live (abs s) x)
    {a : Option V} (ha : Spec.valueOf (abs s) x = a) :
    Compare14.eqIU (pureOp f.eq) (ref x) u s = .ok (Spec.optEq f.eq a (some u)) s ∧
    Compare14.neIU (pureOp f.ne) (ref x) u s = .ok (!Spec.optEq (fun v w => !f.ne v w) a (some u)) s ∧
    Compare14.ltIU (pureOp f.lt) (ref x) u s = .ok (Spec.optLt f.lt a (some u)) s ∧
    Compare14.gtIU (pureOp f.gt) (ref x) u s = .ok (Spec.optLt (fun w v => f.gt v w) (some u) a) s ∧
    Compare14.leIU (pureOp f.le) (ref x) u s = .ok (Spec.optLe f.le a (some u)) s ∧
    Compare14.geIU (pureOp f.ge) (ref x) u s = .ok (Spec.optLe (fun w v => f.ge v w) (some u) a) s := by
  have vx := ref_views (h.inv S) hx
  rw [ha] at vx
  simp only [Compare14.eqIU, Compare14.neIU, Compare14.ltIU, Compare14.gtIU, Compare14.leIU, Compare14.geIU]
  simp only [mixed_run vx]
  cases a <;> simp [pureOp, Spec.optEq, Spec.optLt, Spec.optLe]

/-- … and the six with the object on the right. -/
theorem C29_mixed_right (S : tr.Sound) (h : Reach tr T s) (f : Spec.Six W V) (u : W) (hx : Spec.Live (abs s) x)
    {a : Option V} (ha : Spec.valueOf (abs s) x = a) :
    Compare14.eqUI (pureOp f.eq) u (ref x) s = .ok (Spec.optEq f.eq (some u) a) s ∧
    Compare14.neUI (pureOp f.ne) u (ref x) s = .ok (!Spec.optEq (fun v w => !f.ne v w) (some u) a) s ∧
    Compare14.ltUI (pureOp f.lt) u (ref x) s = .ok (Spec.optLt f.lt (some u) a) s ∧
    Compare14.gtUI (pureOp f.gt) u (ref x) s = .ok (Spec.optLt (fun w v => f.gt v w) a (some u)) s ∧
    Compare14.leUI (pureOp f.le) u (ref x) s = .ok (Spec.optLe f.le (some u) a) s ∧
    Compare14.geUI (pureOp f.ge) u (ref x) s = .ok (Spec.optLe (fun w v => f.ge v w) a (some u)) s := by
  have vx := ref_views (h.inv S) hx
  rw [ha] at vx
  simp only [Compare14.eqUI, Compare14.neUI, Compare14.ltUI, Compare14.gtUI, Compare14.leUI, Compare14.geUI]
  simp only [mixed_run vx]
  cases a <;> simp [pureOp, Spec.optEq, Spec.optLt, Spec.optLe]

/-- Whatever the operators of the values do, and also if they throw: the twelve operators do what the same operators of
two objects would do, one of them engaged with the plain value. -/
theorem C29_mixed_exact (S : tr.Sound) (h : Reach tr T s) (f : V → W → M (St L A R (Obj V)) Bool)
    (g : W → V → M (St L A R (Obj V)) Bool) (u : W) (hx : Spec.Live (abs s) x)
    {a : Option V} (ha : Spec.valueOf (abs s) x = a) :
    Compare14.eqIU f (ref x) u s = Spec.onValues (fun l r => l == r) f a (some u) s ∧
    Compare14.neIU f (ref x) u s = Spec.onValues (fun l r => l != r) f a (some u) s ∧
    Compare14.ltIU f (ref x) u s = Spec.onValues (fun l r => !l && r) f a (some u) s ∧
    Compare14.gtIU f (ref x) u s = Spec.onValues (fun l r => l && !r) f a (some u) s ∧
    Compare14.leIU f (ref x) u s = Spec.onValues (fun l _ => !l) f a (some u) s ∧
    Compare14.geIU f (ref x) u s = Spec.onValues (fun _ r => !r) f a (some u) s ∧
    Compare14.eqUI g u (ref x) s = Spec.onValues (fun l r => l == r) g (some u) a s ∧
    Compare14.neUI g u (ref x) s = Spec.onValues (fun l r => l != r) g (some u) a s ∧
    Compare14.ltUI g u (ref x) s = Spec.onValues (fun l r => !l && r) g (some u) a s ∧
    Compare14.gtUI g u (ref x) s = Spec.onValues (fun l r => l && !r) g (some u) a s ∧
    Compare14.leUI g u (ref x) s = Spec.onValues (fun l _ => !l) g (some u) a s ∧
    Compare14.geUI g u (ref x) s = Spec.onValues (fun _ r => !r) g (some u) a s := by
  have vx := ref_views (h.inv S) hx
  rw [ha] at vx
  simp only [Compare14.eqIU, Compare14.neIU, Compare14.ltIU, Compare14.gtIU, Compare14.leIU, Compare14.geIU,
    Compare14.eqUI, Compare14.neUI, Compare14.ltUI, Compare14.gtUI, Compare14.leUI, Compare14.geUI]
  simp only [mixed_run vx]
  cases a <;> simp [Spec.onValues]

/-- The mixed operators answer as the operators derived from `==` and `<=>` of the C++20 header, with the object on
either side. -/
theorem C29_mixed_same_as_cxx20 (S : tr.Sound) (h : Reach tr T s) {f : Spec.Six V W} {g : Spec.Six W V}
    {eq : V → W → Bool} {o : Spec.Order V W} (hf : f.AgreesWith eq o.three) (hg : f.Mirrors g) (u : W)
    (hx : Spec.Live (abs s) x) :
    ∃ b c, Compare20.eqU (pureOp eq) (ref x) u s = .ok b s ∧ Compare20.cmpU o.ops (ref x) u s = .ok c s ∧
      Compare14.eqIU (pureOp f.eq) (ref x) u s = .ok b s ∧ Compare14.eqUI (pureOp g.eq) u (ref x) s = .ok b s ∧
      Compare14.neIU (pureOp f.ne) (ref x) u s = .ok (!b) s ∧ Compare14.neUI (pureOp g.ne) u (ref x) s = .ok (!b) s ∧
      Compare14.ltIU (pureOp f.lt) (ref x) u s = .ok (Spec.isLt c) s ∧
        Compare14.gtUI (pureOp g.gt) u (ref x) s = .ok (Spec.isLt c) s ∧
      Compare14.gtIU (pureOp f.gt) (ref x) u s = .ok (Spec.isGt c) s ∧
        Compare14.ltUI (pureOp g.lt) u (ref x) s = .ok (Spec.isGt c) s ∧
      Compare14.leIU (pureOp f.le) (ref x) u s = .ok (Spec.isLe c) s ∧
        Compare14.geUI (pureOp g.ge) u (ref x) s = .ok (Spec.isLe c) s ∧
      Compare14.geIU (pureOp f.ge) (ref x) u s = .ok (Spec.isGe c) s ∧
      Compare14.leUI (pureOp g.le) u (ref x) s = .ok (Spec.isGe c) s := by
  have vx := ref_views (h.inv S) hx
  obtain ⟨h1, h2, h3, h4, h5, h6⟩ := C29_mixed_left S h f u hx rfl
  obtain ⟨g1, g2, g3, g4, g5, g6⟩ := C29_mixed_right S h g u hx rfl
  refine ⟨_, _, eqU20_eval vx u eq, cmpU20_eval vx u o, ?_⟩
  rw [h1, h2, h3, h4, h5, h6, g1, g2, g3, g4, g5, g6]
  cases Spec.valueOf (abs s) x with
  | none => simp [Spec.optEq, Spec.optCmp, Spec.optLt, Spec.optLe]; decide
  | some v =>
    simp [Spec.optEq, Spec.optCmp, Spec.optLt, Spec.optLe, ← hg.eq, ← hg.ne, ← hg.lt, ← hg.gt, ← hg.le, ← hg.ge,
      hf.eq, hf.ne, hf.lt, hf.gt, hf.le, hf.ge]

end

/-! ## Instances

The state `s0` has engaged objects 1 (7), 2 (8), 3 (9), 5 (3) and the valueless object 4. -/

/-- Numbers ordered by `<`. -/
def byLess : Spec.Order Nat Nat := ⟨none, fun a b => decide (a < b), fun a b => decide (b < a)⟩
/-- The six operators of numbers. -/
def natOps : Spec.Six Nat Nat := ⟨fun a b => decide (a = b), fun a b => decide (a ≠ b), fun a b => decide (a < b),
  fun a b => decide (b < a), fun a b => decide (a ≤ b), fun a b => decide (b ≤ a)⟩

theorem natLess_strictWeak : Spec.StrictWeak (fun a b : Nat => decide (a < b)) where
  irrefl := by simp
  trans := by simp; omega
  incomp := by simp; omega

theorem natOps_negations : natOps.Negations where
  ne := by simp [natOps]
  le a b := by by_cases h : b < a <;> simp [natOps, h] <;> omega
  ge a b := by by_cases h : a < b <;> simp [natOps, h] <;> omega
theorem natOps_mirrors : natOps.Mirrors natOps where
  eq := by simp [natOps, eq_comm]
  ne := by simp [natOps, eq_comm]
  lt := by simp [natOps]
  gt := by simp [natOps]
  le := by simp [natOps]
  ge := by simp [natOps]
theorem natOps_agrees : natOps.AgreesWith (fun a b => decide (a = b)) byLess.three := by
  constructor <;> intro a b <;> by_cases h1 : a < b <;> by_cases h2 : b < a <;>
    simp [natOps, byLess, Spec.Order.three, Spec.isLt, Spec.isGt, Spec.isLe, Spec.isGe, h1, h2] <;>
    (first | omega | rfl | (intro; omega) | (exact decide_eq_false (by omega)))

/-- What a comparison returned. -/
def answer {σ α : Type} : Res σ α → Option α
  | .ok a _ => some a
  | _ => none

-- C24
example : Spec.Equivalence natOps.eq := ⟨by simp [natOps], by simp [natOps, eq_comm], by simp [natOps]⟩
example : (alloc false false false).Sound ∧ Reach (alloc false false false) T s0 ∧
    Spec.Live (abs s0) 1 ∧ Spec.Live (abs s0) 2 ∧ Spec.Live (abs s0) 4 ∧
    answer (Compare20.eq (pureOp natOps.eq) (ref 1) (ref 2) s0) = some false ∧
    answer (Compare20.eq (pureOp natOps.eq) (ref 1) (ref 1) s0) = some true ∧
    answer (Compare20.eq (pureOp natOps.eq) (ref 1) (ref 4) s0) = some false ∧
    answer (Compare20.eq (pureOp natOps.eq) (ref 4) (ref 1) s0) = some false ∧
    answer (Compare20.eq (pureOp natOps.eq) (ref 4) (ref 4) s0) = some true :=
  ⟨alloc_sound _ _ _, s0_reach, by decide, by decide, by decide, by decide, by decide, by decide, by decide, by decide⟩
example : answer (Compare20.eq (pureOp natOps.eq) (one 1) (other 3) (s0, st true true true)) = some false ∧
    answer (Compare20.eq (pureOp natOps.eq) (one 4) (other 4) (s0, st true true true)) = some true := by decide

/-- A comparison of values that throws. -/
example : (match Compare20.eq (fun _ _ => M.throwE .badAlloc) (ref 1) (ref 2) s0 with
    | .threw e _ => some e
    | _ => none) = some .badAlloc ∧
    answer (Compare20.eq (fun _ _ => M.throwE .badAlloc) (ref 1) (ref 4) s0) = some false := by decide

-- C25, C27
example : Spec.Lawful byLess.three ∧ Spec.Total byLess.three := C27_weak_order natLess_strictWeak
example : ∀ a b, natOps.eq a b = true ↔ byLess.three a b = .equivalent := by
  intro a b
  by_cases h1 : a < b <;> by_cases h2 : b < a <;> simp [natOps, byLess, Spec.Order.three, h1, h2] <;> omega
example : answer (Compare20.cmp byLess.ops (ref 1) (ref 2) s0) = some .less ∧
    answer (Compare20.cmp byLess.ops (ref 2) (ref 1) s0) = some .greater ∧
    answer (Compare20.cmp byLess.ops (ref 4) (ref 1) s0) = some .less ∧
    answer (Compare20.cmp byLess.ops (ref 1) (ref 4) s0) = some .greater ∧
    answer (Compare20.cmp byLess.ops (ref 4) (ref 4) s0) = some .equivalent ∧
    answer (Compare20.cmp byLess.ops (one 1) (other 1) (s0, st true true true)) = some .equivalent := by decide
/-- A partial order, with a value unordered with itself: lawfulness cannot be expected of it, and the result is what
the values give. -/
example : answer (Compare20.cmp (Spec.Order.ops ⟨some fun _ _ => .unordered, fun _ _ => false, fun _ _ => false⟩)
    (ref (1 : Nat)) (ref 2) s0) = some .unordered := by decide

-- C26
example : Spec.valueOf (abs s0) 4 = none ∧ Spec.valueOf (abs s0) 1 = some 7 ∧
    answer (Compare20.eqU (pureOp natOps.eq) (ref 1) 7 s0) = some true ∧
    answer (Compare20.eqU (pureOp natOps.eq) (ref 4) 0 s0) = some false ∧
    answer (Compare20.cmpU byLess.ops (ref 4) 0 s0) = some .less ∧
    answer (Compare20.cmpU byLess.ops (ref 1) 0 s0) = some .greater := by decide
example : ∀ a b, byLess.three b a = Spec.reverse (byLess.three a b) :=
  (C27_weak_order natLess_strictWeak).1.reverse

-- C28
example : (∀ v w, natOps.eq v w = true → (fun v : Nat => 2 * v) v = (fun v => 2 * v) w) ∧
    answer (Compare20.eq (pureOp natOps.eq) (ref 4) (ref 4) s0) = some true ∧
    answer (Compare20.hash 1000 (fun v => pure (2 * v)) (ref 4) s0) = some 1000 ∧
    answer (Compare14.hash 1000 (fun v => pure (2 * v)) (ref 1) s0) = some 14 :=
  ⟨by simp [natOps], by decide, by decide, by decide⟩

-- C29
example : natOps.Negations ∧ natOps.Mirrors natOps ∧
    natOps.AgreesWith (fun a b => decide (a = b)) byLess.three :=
  ⟨natOps_negations, natOps_mirrors, natOps_agrees⟩
example : answer (Compare14.lt (pureOp natOps.lt) (ref 4) (ref 1) s0) = some true ∧
    answer (Compare14.lt (pureOp natOps.lt) (ref 4) (ref 4) s0) = some false ∧
    answer (Compare14.le (pureOp natOps.le) (ref 4) (ref 4) s0) = some true ∧
    answer (Compare14.ge (pureOp natOps.ge) (ref 1) (ref 4) s0) = some true ∧
    answer (Compare14.gt (pureOp natOps.gt) (ref 1) (ref 2) s0) = some false ∧
    answer (Compare14.ltUI (pureOp natOps.lt) 0 (ref 4) s0) = some false ∧
    answer (Compare14.gtUI (pureOp natOps.gt) 0 (ref 4) s0) = some true ∧
    answer (Compare14.neUI (pureOp natOps.ne) 7 (ref 1) s0) = some false := by decide

end Verif.Props
