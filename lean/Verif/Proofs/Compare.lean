import Verif.Spec.Compare
import Verif.Proofs.IndirectDelta

/-! Evaluation of comparisons. -/

set_option autoImplicit false
set_option linter.unusedSectionVars false
set_option linter.unusedSimpArgs false

namespace Verif
open Verif

section
variable {σ τ V W : Type}

/-- In state `s` the object shows the optional value `o`; looking at it changes nothing. -/
structure Views (r : Ref σ V) (s : σ) (o : Option V) : Prop where
  valueless : r.valueless s = .ok o.isNone s
  deref : ∀ v, o = some v → r.deref s = .ok v s

theorem Views.fst {r : Ref σ V} {s : σ} {t : τ} {o : Option V} (h : Views r s o) : Views (Ref.fst r) (s, t) o where
  valueless := by simp [Ref.fst, M.fst, h.valueless]
  deref v hv := by simp [Ref.fst, M.fst, h.deref v hv]

theorem Views.snd {r : Ref τ V} {s : σ} {t : τ} {o : Option V} (h : Views r t o) : Views (Ref.snd r) (s, t) o where
  valueless := by simp [Ref.snd, M.snd, h.valueless]
  deref v hv := by simp [Ref.snd, M.snd, h.deref v hv]

variable {x : Ref σ V} {y : Ref σ W} {s : σ} {a : Option V} {b : Option W}

theorem eq20_run (hx : Views x s a) (hy : Views y s b) (f : V → W → M σ Bool) :
    Compare20.eq f x y s = Spec.onValues (fun a b => a == b) f a b s := by
  unfold Compare20.eq
  rw [M.bind_ok hx.valueless]
  cases a with
  | none => simp only [Option.isNone_none, if_true, hy.valueless]; cases b <;> rfl
  | some v =>
    simp only [Option.isNone_some, Bool.false_eq_true, if_false]
    rw [M.bind_ok hy.valueless]
    cases b with
    | none => rfl
    | some w =>
      simp only [Option.isNone_some, Bool.false_eq_true, if_false]
      rw [M.bind_ok (hx.deref v rfl), M.bind_ok (hy.deref w rfl)]; rfl

theorem eq20_eval (hx : Views x s a) (hy : Views y s b) (f : V → W → Bool) :
    Compare20.eq (pureOp f) x y s = .ok (Spec.optEq f a b) s := by
  rw [eq20_run hx hy]; cases a <;> cases b <;> simp [Spec.onValues, pureOp, Spec.optEq, Spec.optLt, Spec.optLe]

theorem eqU20_run (hx : Views x s a) (u : W) (f : V → W → M σ Bool) :
    Compare20.eqU f x u s = Spec.onValues (fun a b => a == b) f a (some u) s := by
  unfold Compare20.eqU
  rw [M.bind_ok hx.valueless]
  cases a with
  | none => rfl
  | some v =>
    simp only [Option.isNone_some, Bool.false_eq_true, if_false]
    rw [M.bind_ok (hx.deref v rfl)]; rfl

theorem eqU20_eval (hx : Views x s a) (u : W) (f : V → W → Bool) :
    Compare20.eqU (pureOp f) x u s = .ok (Spec.optEq f a (some u)) s := by
  rw [eqU20_run hx]; cases a <;> simp [Spec.onValues, pureOp, Spec.optEq]

theorem either_eval (hx : Views x s a) (hy : Views y s b) :
    (do if ← x.valueless then pure true else y.valueless : M σ Bool) s = .ok (a.isNone || b.isNone) s := by
  rw [M.bind_ok hx.valueless]
  cases a with
  | none => rfl
  | some v => simp only [Option.isNone_some, Bool.false_eq_true, if_false, hy.valueless, Bool.false_or]

theorem both_eval (hx : Views x s a) (hy : Views y s b) :
    (do if ← x.valueless then y.valueless else pure false : M σ Bool) s = .ok (a.isNone && b.isNone) s := by
  rw [M.bind_ok hx.valueless]
  cases a with
  | none => simp only [Option.isNone_none, if_true, hy.valueless, Bool.true_and]
  | some v => rfl

theorem cmp20_run (hx : Views x s a) (hy : Views y s b) (o : Ordered σ V W) :
    Compare20.cmp o x y s = Spec.onValues Cmp.ofBool (synthThreeWay o) a b s := by
  unfold Compare20.cmp
  rw [M.bind_ok (either_eval hx hy)]
  cases a with
  | none =>
    simp only [Option.isNone_none, Bool.true_or, if_true]
    rw [M.bind_ok hx.valueless, M.bind_ok hy.valueless]
    cases b <;> rfl
  | some v =>
    cases b with
    | none =>
      simp only [Option.isNone_none, Bool.or_true, if_true]
      rw [M.bind_ok hx.valueless, M.bind_ok hy.valueless]; rfl
    | some w =>
      simp only [Option.isNone_some, Bool.or_self, Bool.false_eq_true, if_false]
      rw [M.bind_ok (hx.deref v rfl), M.bind_ok (hy.deref w rfl)]; rfl

theorem synth_eval (o : Spec.Order V W) (v : V) (w : W) : synthThreeWay o.ops v w s = .ok (o.three v w) s := by
  unfold synthThreeWay Spec.Order.ops Spec.Order.three
  cases o.threeWay with
  | some f => rfl
  | none =>
    simp only [Option.map_none, M.bind_eq, pureOp, M.pure_eq]
    cases o.lt v w <;> simp only [if_true, if_false, M.bind_eq, M.pure_eq, Bool.false_eq_true]
    cases o.gt v w <;> rfl

theorem cmp20_eval (hx : Views x s a) (hy : Views y s b) (o : Spec.Order V W) :
    Compare20.cmp o.ops x y s = .ok (Spec.optCmp o.three a b) s := by
  rw [cmp20_run hx hy]
  cases a <;> cases b <;> simp [Spec.onValues, Spec.optCmp, synth_eval, Cmp.ofBool]

theorem cmpU20_run (hx : Views x s a) (u : W) (o : Ordered σ V W) :
    Compare20.cmpU o x u s = Spec.onValues Cmp.ofBool (synthThreeWay o) a (some u) s := by
  unfold Compare20.cmpU
  rw [M.bind_ok hx.valueless]
  cases a with
  | none => rfl
  | some v =>
    simp only [Option.isNone_some, Bool.false_eq_true, if_false]
    rw [M.bind_ok (hx.deref v rfl)]; rfl

theorem cmpU20_eval (hx : Views x s a) (u : W) (o : Spec.Order V W) :
    Compare20.cmpU o.ops x u s = .ok (Spec.optCmp o.three a (some u)) s := by
  rw [cmpU20_run hx]; cases a <;> simp [Spec.onValues, Spec.optCmp, synth_eval, Cmp.ofBool]

theorem hash20_run {H : Type} (hx : Views x s a) (n : H) (h : V → M σ H) :
    Compare20.hash n h x s = a.elim (pure n) h s := by
  unfold Compare20.hash
  rw [M.bind_ok hx.valueless]
  cases a with
  | none => rfl
  | some v =>
    simp only [Option.isNone_some, Bool.false_eq_true, if_false]
    rw [M.bind_ok (hx.deref v rfl)]; rfl

theorem hash14_run {H : Type} (hx : Views x s a) (n : H) (h : V → M σ H) :
    Compare14.hash n h x s = a.elim (pure n) h s := by
  unfold Compare14.hash
  rw [M.bind_ok hx.valueless]
  cases a with
  | none => rfl
  | some v =>
    simp only [Option.isNone_some, Bool.false_eq_true, if_false]
    rw [M.bind_ok (hx.deref v rfl)]; rfl

theorem eq14_run (hx : Views x s a) (hy : Views y s b) (f : V → W → M σ Bool) :
    Compare14.eq f x y s = Spec.onValues (fun a b => a == b) f a b s := by
  unfold Compare14.eq
  rw [M.bind_ok (either_eval hx hy)]
  cases a with
  | none =>
    simp only [Option.isNone_none, Bool.true_or, if_true]
    rw [both_eval hx hy]; cases b <;> rfl
  | some v =>
    cases b with
    | none =>
      simp only [Option.isNone_none, Bool.or_true, if_true]
      rw [both_eval hx hy]; rfl
    | some w =>
      simp only [Option.isNone_some, Bool.or_self, Bool.false_eq_true, if_false]
      rw [M.bind_ok (hx.deref v rfl), M.bind_ok (hy.deref w rfl)]; rfl

theorem eq14_eval (hx : Views x s a) (hy : Views y s b) (f : V → W → Bool) :
    Compare14.eq (pureOp f) x y s = .ok (Spec.optEq f a b) s := by
  rw [eq14_run hx hy]; cases a <;> cases b <;> simp [Spec.onValues, pureOp, Spec.optEq, Spec.optLt, Spec.optLe]

theorem ne14_run (hx : Views x s a) (hy : Views y s b) (f : V → W → M σ Bool) :
    Compare14.ne f x y s = Spec.onValues (fun a b => a != b) f a b s := by
  unfold Compare14.ne
  rw [M.bind_ok (either_eval hx hy)]
  cases a with
  | none =>
    simp only [Option.isNone_none, Bool.true_or, if_true]
    rw [M.bind_ok (both_eval hx hy)]; cases b <;> rfl
  | some v =>
    cases b with
    | none =>
      simp only [Option.isNone_none, Bool.or_true, if_true]
      rw [M.bind_ok (both_eval hx hy)]; rfl
    | some w =>
      simp only [Option.isNone_some, Bool.or_self, Bool.false_eq_true, if_false]
      rw [M.bind_ok (hx.deref v rfl), M.bind_ok (hy.deref w rfl)]
      rfl

theorem ne14_eval (hx : Views x s a) (hy : Views y s b) (f : V → W → Bool) :
    Compare14.ne (pureOp f) x y s = .ok (!Spec.optEq (fun v w => !f v w) a b) s := by
  rw [ne14_run hx hy]; cases a <;> cases b <;> simp [Spec.onValues, pureOp, Spec.optEq, Spec.optLt, Spec.optLe]

theorem lt14_run (hx : Views x s a) (hy : Views y s b) (f : V → W → M σ Bool) :
    Compare14.lt f x y s = Spec.onValues (fun a b => !a && b) f a b s := by
  unfold Compare14.lt
  rw [M.bind_ok hx.valueless]
  cases a with
  | none =>
    simp only [Option.isNone_none, if_true]
    rw [M.bind_ok hy.valueless]; cases b <;> rfl
  | some v =>
    simp only [Option.isNone_some, Bool.false_eq_true, if_false]
    rw [M.bind_ok hy.valueless]
    cases b with
    | none => rfl
    | some w =>
      simp only [Option.isNone_some, Bool.not_false, if_true]
      rw [M.bind_ok (hx.deref v rfl), M.bind_ok (hy.deref w rfl)]; rfl

theorem lt14_eval (hx : Views x s a) (hy : Views y s b) (f : V → W → Bool) :
    Compare14.lt (pureOp f) x y s = .ok (Spec.optLt f a b) s := by
  rw [lt14_run hx hy]; cases a <;> cases b <;> simp [Spec.onValues, pureOp, Spec.optEq, Spec.optLt, Spec.optLe]

theorem gt14_run (hx : Views x s a) (hy : Views y s b) (f : V → W → M σ Bool) :
    Compare14.gt f x y s = Spec.onValues (fun a b => a && !b) f a b s := by
  unfold Compare14.gt
  rw [M.bind_ok hy.valueless]
  cases b with
  | none =>
    simp only [Option.isNone_none, if_true]
    rw [M.bind_ok hx.valueless]; cases a <;> rfl
  | some w =>
    simp only [Option.isNone_some, Bool.false_eq_true, if_false]
    rw [M.bind_ok hx.valueless]
    cases a with
    | none => rfl
    | some v =>
      simp only [Option.isNone_some, Bool.not_false, if_true]
      rw [M.bind_ok (hx.deref v rfl), M.bind_ok (hy.deref w rfl)]; rfl

theorem gt14_eval (hx : Views x s a) (hy : Views y s b) (f : V → W → Bool) :
    Compare14.gt (pureOp f) x y s = .ok (Spec.optLt (fun w v => f v w) b a) s := by
  rw [gt14_run hx hy]; cases a <;> cases b <;> simp [Spec.onValues, pureOp, Spec.optEq, Spec.optLt, Spec.optLe]

theorem le14_run (hx : Views x s a) (hy : Views y s b) (f : V → W → M σ Bool) :
    Compare14.le f x y s = Spec.onValues (fun a _ => !a) f a b s := by
  unfold Compare14.le
  rw [M.bind_ok hx.valueless]
  cases a with
  | none => rfl
  | some v =>
    simp only [Option.isNone_some, Bool.false_eq_true, if_false]
    rw [M.bind_ok hy.valueless]
    cases b with
    | none => rfl
    | some w =>
      simp only [Option.isNone_some, Bool.not_false, if_true]
      rw [M.bind_ok (hx.deref v rfl), M.bind_ok (hy.deref w rfl)]; rfl

theorem le14_eval (hx : Views x s a) (hy : Views y s b) (f : V → W → Bool) :
    Compare14.le (pureOp f) x y s = .ok (Spec.optLe f a b) s := by
  rw [le14_run hx hy]; cases a <;> cases b <;> simp [Spec.onValues, pureOp, Spec.optEq, Spec.optLt, Spec.optLe]

theorem ge14_run (hx : Views x s a) (hy : Views y s b) (f : V → W → M σ Bool) :
    Compare14.ge f x y s = Spec.onValues (fun _ b => !b) f a b s := by
  unfold Compare14.ge
  rw [M.bind_ok hy.valueless]
  cases b with
  | none => cases a <;> rfl
  | some w =>
    simp only [Option.isNone_some, Bool.false_eq_true, if_false]
    rw [M.bind_ok hx.valueless]
    cases a with
    | none => rfl
    | some v =>
      simp only [Option.isNone_some, Bool.not_false, if_true]
      rw [M.bind_ok (hx.deref v rfl), M.bind_ok (hy.deref w rfl)]; rfl

theorem ge14_eval (hx : Views x s a) (hy : Views y s b) (f : V → W → Bool) :
    Compare14.ge (pureOp f) x y s = .ok (Spec.optLe (fun w v => f v w) b a) s := by
  rw [ge14_run hx hy]; cases a <;> cases b <;> simp [Spec.onValues, pureOp, Spec.optEq, Spec.optLt, Spec.optLe]

theorem mixed_run (hx : Views x s a) (c : Bool) (f : V → M σ Bool) :
    Compare14.mixed c f x s = a.elim (pure c) f s := by
  unfold Compare14.mixed
  rw [M.bind_ok hx.valueless]
  cases a with
  | none => rfl
  | some v =>
    simp only [Option.isNone_some, Bool.false_eq_true, if_false]
    rw [M.bind_ok (hx.deref v rfl)]; rfl

end

namespace Indirect
section
variable {L A R V X : Type} [DecidableEq L] [DecidableEq R]
variable {tr : ATraits A R} {T : TSpec V X} {s : St L A R (Obj V)}

theorem ref_views (I : IInv tr s) {x : L} (hx : Spec.Live (abs s) x) :
    Views (ref x) s (Spec.valueOf (abs s) x) := by
  obtain ⟨k, hk⟩ := live_hs hx
  have hv := has_eq I hk
  refine ⟨?_, ?_⟩
  · simp only [ref]
    rw [valueless_eq hk]
    cases hp : k.p <;> cases hb : Spec.valueOf (abs s) x <;> simp_all [Spec.has]
  · intro v h
    obtain ⟨k', q, r, hk', hq, hh⟩ := abs_valueOf h
    simp only [ref]
    rw [M.bind_ok (deref_some hk' hq)]
    simp [readObj, readBody, M.bind_eq, hh]

end
end Indirect

namespace Spec
section
variable {V W : Type}

theorem optEq_equivalence {f : V → V → Bool} (h : Spec.Equivalence f) : Spec.Equivalence (optEq f) where
  refl a := by cases a <;> simp [optEq, h.refl]
  symm a b := by cases a <;> cases b <;> simp [optEq]; exact h.symm _ _
  trans a b c := by cases a <;> cases b <;> cases c <;> simp [optEq]; exact h.trans _ _ _

theorem optCmp_lawful {f : V → V → Cmp} (h : Lawful f) : Lawful (optCmp f) where
  refl a := by cases a <;> simp [optCmp, h.refl]
  reverse a b := by cases a <;> cases b <;> simp [optCmp, Spec.reverse]; exact h.reverse _ _
  trans a b c := by cases a <;> cases b <;> cases c <;> simp [optCmp]; exact h.trans _ _ _
  congr a b c := by cases a <;> cases b <;> cases c <;> simp [optCmp]; exact h.congr _ _ _

theorem optCmp_total {f : V → W → Cmp} (h : Total f) : Total (optCmp f) := by
  intro a b; cases a <;> cases b <;> simp [optCmp]; exact h _ _

end
end Spec
end Verif
