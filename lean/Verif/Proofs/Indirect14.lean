import Verif.Spec.Indirect14
import Verif.Proofs.Basic

/-! The C++14 functions are the C++20 functions, for a type whose `assignable` is `copyAssignable`. -/

set_option autoImplicit false
set_option linter.unusedSectionVars false
set_option linter.unusedSimpArgs false

namespace Verif

/-- The type as the C++14 header sees it. -/
def TOps.cxx14 {σ A X : Type} (T : TOps σ A X) : TOps σ A X := { T with assignable := T.copyAssignable }

namespace Indirect14
section
variable {L A R V X : Type} [DecidableEq L] [DecidableEq R]
variable (tr : ATraits A R) (T : TOps (St L A R (Obj V)) A X)

theorem plain_cxx14 (T : TSpec V X) :
    (plain T : TOps (St L A R (Obj V)) A X).cxx14 = plain T.cxx14 := rfl

theorem evalSrc_eq (u : Src L X) :
    (evalSrc u : M (St L A R (Obj V)) (Fwd X)) = Indirect.evalSrc u := by cases u <;> rfl

theorem construct_eq (a : Option A) (c : Ctor L X) : construct tr T a c = Indirect.construct tr T.cxx14 a c := by
  cases a <;> cases c <;>
    simp only [construct, Indirect.construct, evalSrc_eq] <;> rfl

theorem assignFrom_eq (x : L) (u : Fwd X) : assignFrom tr T x u = Indirect.assignFrom tr T.cxx14 x u := by
  unfold assignFrom Indirect.assignFrom
  congr 1
  funext b
  cases b with
  | false => rfl
  | true =>
    funext s
    simp only [if_true, M.bind_eq, getAllocator, getH]
    cases s.hs x <;> rfl

theorem step_eq (o : Op L A V X) : step tr T o = Indirect.step tr T.cxx14 o := by
  cases o <;> simp only [step, Indirect.step, construct_eq, evalSrc_eq, assignFrom_eq] <;> rfl

theorem call_eq (T : TSpec V X) (o : Op L A V X) (e : Env) (s : St L A R (Obj V)) :
    call tr (plain T) o e s = Indirect.call tr (plain T.cxx14) o e s := by
  unfold call Indirect.call
  rw [step_eq]; rfl

theorem run_eq (T : TSpec V X) : (run tr T : List (Op L A V X × Env) → _) = Indirect.run tr T.cxx14 := by
  unfold run Indirect.run
  congr 1; funext c s; exact call_eq tr T _ _ _

theorem legalRun_eq (T : TSpec V X) :
    (LegalRun tr T : List (Op L A V X × Env) → _) = Indirect.LegalRun tr T.cxx14 := by
  unfold LegalRun Indirect.LegalRun
  congr 1; funext c s; exact call_eq tr T _ _ _

theorem reach_iff (T : TSpec V X) (s : St L A R (Obj V)) : Reach tr T s ↔ Indirect.Reach tr T.cxx14 s := by
  constructor
  · intro h
    induction h with
    | init => exact .init
    | ret o e out _ hl hc ih => exact .ret o e out ih hl (by rw [← call_eq]; exact hc)
    | threw o e x _ hl hc ih => exact .threw o e x ih hl (by rw [← call_eq]; exact hc)
  · intro h
    induction h with
    | init => exact .init
    | ret o e out _ hl hc ih => exact .ret o e out ih hl (by rw [call_eq]; exact hc)
    | threw o e x _ hl hc ih => exact .threw o e x ih hl (by rw [call_eq]; exact hc)

theorem cxx14_self {T : TSpec V X} (h : T.assignable = T.copyAssignable) : T.cxx14 = T := by
  cases T; simp only [TSpec.cxx14] at *; simp [h]

end
end Indirect14
end Verif
