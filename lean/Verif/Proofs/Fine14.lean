import Verif.Indirect14Fine
import Verif.Polymorphic14Fine
import Verif.Proofs.Indirect14
import Verif.Proofs.Polymorphic14
import Verif.Proofs.ConcurrentApi
import Verif.Proofs.Progress

/-! The programs of the C++14 headers, and what `Proofs/Concurrent.lean` has to know about them. -/

set_option autoImplicit false
set_option linter.unusedSectionVars false
set_option linter.unusedSimpArgs false

namespace Verif
namespace Fine

/-- The type as the C++14 header sees it. -/
def FOps.cxx14 {L A R B X : Type} (T : FOps L A R B X) : FOps L A R B X := { T with assignable := T.copyAssignable }

namespace Indirect14
section
variable {L A R V X : Type} [DecidableEq L]
variable (tr : ATraits A R) (T : FOps L A R (Obj V) X)

theorem evalSrc_eq (u : Src L X) :
    (evalSrc u : Prog L A R (Obj V) (Fwd X)) = Indirect.evalSrc u := by cases u <;> rfl

theorem construct_eq (a : Option A) (c : Ctor L X) : construct tr T a c = Indirect.construct tr T.cxx14 a c := by
  cases a <;> cases c <;> simp only [construct, Indirect.construct, evalSrc_eq] <;> rfl

/-- The programs of indirect_cxx14.h are those of indirect.h, access by access. -/
theorem step_eq (o : Op L A V X) : step tr T o = Indirect.step tr T.cxx14 o := by
  cases o <;> simp only [step, Indirect.step, construct_eq, evalSrc_eq] <;> rfl

end
end Indirect14

namespace Polymorphic14
section
variable {L A R Ty V X : Type} [DecidableEq L] [DecidableEq Ty]
variable (tr : ATraits A R) (P : FPOps L A R (PBody Ty V) Ty X)
open Verif.Polymorphic14 (fix fixCtor)

theorem evalSrc_eq (u : Src L X) :
    (evalSrc u : Prog L A R (PBody Ty V) (Fwd X)) = Polymorphic.evalSrc u := by cases u <;> rfl

theorem construct_eq (a : Option A) (c : PCtor L Ty X) :
    construct tr P a c = Polymorphic.construct tr P a (fixCtor P.base c) := by
  cases a <;> cases c <;> simp only [construct, Polymorphic.construct, evalSrc_eq, fixCtor] <;> rfl

theorem step_eq (o : POp L A Ty V X) (h1 : ∀ x y, o ≠ .move x y) (h2 : ∀ x a y, o ≠ .moveA x a y) :
    step tr P o = Polymorphic.step tr P (fix P.base o) := by
  cases o with
  | move x y => exact absurd rfl (h1 _ _)
  | moveA x a y => exact absurd rfl (h2 _ _ _)
  | make x a c => simp only [step, Polymorphic.step, fix, construct_eq]
  | _ => rfl

theorem poperands_fix (base : Ty) (o : POp L A Ty V X) : Spec.poperands (fix base o) = Spec.poperands o := by
  cases o with
  | make x a c => cases c <;> rfl
  | _ => rfl

theorem pchanges_fix (base : Ty) (o : POp L A Ty V X) : Spec.pchanges (fix base o) = Spec.pchanges o := by
  cases o with
  | make x a c => cases c <;> rfl
  | _ => rfl

theorem interp_ctorMoveA [DecidableEq R] {Q : POps (St L A R (PBody Ty V)) A Ty X} (S : PSame P Q) (a : A) (y : L) :
    Prog.interp (ctorMoveA tr P a y) = Verif.Polymorphic14.ctorMoveA tr Q a y := by
  simp only [ctorMoveA, Verif.Polymorphic14.ctorMoveA, Prog.interp_bind, Prog.interp_noexceptIf, interp_getH, Prog.interp_ite,
    interp_setP, Prog.interp_pure]
  have e1 : (valueless y : Prog L A R (PBody Ty V) Bool) = Polymorphic.valueless y := rfl
  have e2 : (derefCB y : Prog L A R (PBody Ty V) Addr) = Polymorphic.derefCB y := rfl
  have e3 : ∀ q, vmove tr P q a = Polymorphic.vmove tr P q a := fun _ => rfl
  simp only [e1, e2, e3, Polymorphic.interp_valueless, Polymorphic.interp_derefCB, Polymorphic.interp_vmove tr S]
  rfl

/-- Running the program of a call without interruption is the call. -/
theorem interp_step [DecidableEq R] {Q : POps (St L A R (PBody Ty V)) A Ty X} (S : PSame P Q) (o : POp L A Ty V X) :
    Prog.interp (step tr P o) = Verif.Polymorphic14.step tr Q o := by
  cases o with
  | move x y =>
    simp only [step, Verif.Polymorphic14.step, ctorMove, Verif.Polymorphic14.ctorMove, Prog.interp_bind,
      Prog.interp_noexceptIf, interp_getH, interp_ctorMoveA tr P S, interp_emplace, Prog.interp_pure]
  | moveA x a y =>
    simp only [step, Verif.Polymorphic14.step, Prog.interp_bind, interp_ctorMoveA tr P S, interp_emplace, Prog.interp_pure]
  | make x a c =>
    rw [step_eq tr P _ (by simp) (by simp), Polymorphic.interp_step tr S, S.base]
    simp only [Verif.Polymorphic14.step, Verif.Polymorphic.step, fix, Verif.Polymorphic14.construct_eq]
  | _ => rw [step_eq tr P _ (by simp) (by simp), Polymorphic.interp_step tr S]; rfl

/-- Every call is at most 40 accesses. -/
theorem am_step {P : FPOps L A R (PBody Ty V) Ty X} (hP : PAm P) (o : POp L A Ty V X) : (step tr P o).AtMost 40 := by
  have hm : ∀ a y, (ctorMoveA tr P a y).AtMost 20 := by
    intro a y
    unfold ctorMoveA
    apply Prog.AtMost.mono
    · repeat' (first
        | exact Polymorphic.am_valueless _ | exact Polymorphic.am_derefCB _ | exact Polymorphic.am_vmove _ (by assumption) _ _
        | amp2)
    · decide
  by_cases h1 : ∃ x y, o = .move x y
  · obtain ⟨x, y, rfl⟩ := h1
    simp only [step, ctorMove]
    apply Prog.AtMost.mono
    · repeat' (first | exact hm _ _ | amp2)
    · decide
  by_cases h2 : ∃ x a y, o = .moveA x a y
  · obtain ⟨x, a, y, rfl⟩ := h2
    simp only [step]
    apply Prog.AtMost.mono
    · repeat' (first | exact hm _ _ | amp2)
    · decide
  rw [step_eq tr P o (fun x y h => h1 ⟨x, y, h⟩) (fun x a y h => h2 ⟨x, a, y, h⟩)]
  exact Polymorphic.am_step tr hP _

variable [DecidableEq R] {F : Within.Frame L A R (PBody Ty V)} (hbp : F.bp = Verif.Polymorphic.cbPtr)
include hbp

theorem within_ctorMoveA {P : FPOps L A R (PBody Ty V) Ty X} (TT : Polymorphic.POnly F P) (a : A) {y : L} (hy : F.W y) :
    Within.Within F (Within.HOk F) (ctorMoveA tr P a y) := by
  unfold ctorMoveA
  refine Within.noexcept (Within.bind (Within.getH hy) fun o ho => ?_)
  refine Within.ite ?_ (Within.ite ?_ ?_)
  · exact Within.bindU (Within.setP hy (by simp)) fun _ => Within.pure' ho
  · exact Within.bindU (Within.setP hy (by simp)) fun _ => Within.pure' ho
  · refine Within.bindU (Polymorphic.within_valueless (F.sub _ hy)) fun b =>
      Within.ite ?_ (Within.pure' (fun _ h => nomatch h))
    refine Within.bind (Polymorphic.within_derefCB hy) fun q hq => ?_
    refine Within.bind (Polymorphic.within_vmove hbp tr TT hq a) fun p hp => Within.pure' ?_
    rintro p' ⟨⟩; exact hp

theorem within_step (Q : PSpec Ty V X) {o : POp L A Ty V X} (hop : ∀ z ∈ Spec.poperands o, F.U z)
    (ho : ∀ z ∈ Spec.pchanges o, F.W z) : Within.Within F Within.Any (step tr (plainP Q) o) := by
  have TT := Polymorphic.within_plainP (F := F) hbp Q
  by_cases h1 : ∃ x y, o = .move x y
  · obtain ⟨x, y, rfl⟩ := h1
    have hx : F.W x := ho x (by simp [Spec.pchanges, Spec.prebinds])
    have hy : F.W y := ho y (by simp [Spec.pchanges, Spec.prebinds])
    refine Within.bind (Within.noexcept (Within.bindU (Within.getH' (F.sub _ hy)) fun _ =>
      within_ctorMoveA tr hbp TT _ hy)) fun _ hh =>
        Within.bindU (Within.emplace hx hh) fun _ => Within.pure' trivial
  by_cases h2 : ∃ x a y, o = .moveA x a y
  · obtain ⟨x, a, y, rfl⟩ := h2
    have hx : F.W x := ho x (by simp [Spec.pchanges, Spec.prebinds])
    have hy : F.W y := ho y (by simp [Spec.pchanges, Spec.prebinds])
    exact Within.bind (within_ctorMoveA tr hbp TT a hy) fun _ hh =>
      Within.bindU (Within.emplace hx hh) fun _ => Within.pure' trivial
  rw [step_eq tr _ o (fun x y h => h1 ⟨x, y, h⟩) (fun x a y h => h2 ⟨x, a, y, h⟩)]
  exact Polymorphic.within_step hbp tr Q (by rw [poperands_fix]; exact hop) (by rw [pchanges_fix]; exact ho)

end
end Polymorphic14
end Fine

namespace Conc
section
variable {L A R V X : Type} [DecidableEq L] [DecidableEq R]

theorem prog14 (tr : ATraits A R) (T : TSpec V X) :
    (Fine.Indirect14.step tr (Fine.plain T) : Op L A V X → _) = Fine.Indirect.step tr (Fine.plain T.cxx14) := by
  funext o; exact Fine.Indirect14.step_eq tr _ o

/-- What the argument needs to know about `indirect` of indirect_cxx14.h. -/
noncomputable def indirect14 (tr : ATraits A R) (T : TSpec V X) (S : tr.Sound) :
    VApi L A R (Obj V) V Nat (Op L A V X) :=
  { indirect (L := L) tr T.cxx14 S with
    prog := Fine.Indirect14.step tr (Fine.plain T)
    call := Indirect14.call tr (plain T)
    call_eq := fun o e s => by
      rw [prog14, Indirect14.call_eq]; exact (indirect (L := L) tr T.cxx14 S).call_eq o e s
    safe := fun o e s I h => by
      rw [Indirect14.call_eq]; exact (indirect (L := L) tr T.cxx14 S).safe o e s I h
    within := fun F o => by
      rw [prog14]; exact (indirect (L := L) tr T.cxx14 S).within F o
    refines := fun s o e I h => by
      rw [Indirect14.call_eq]; exact (indirect (L := L) tr T.cxx14 S).refines s o e I h }

end

section
variable {L A R Ty V X : Type} [DecidableEq L] [DecidableEq R] [DecidableEq Ty]
open Polymorphic14 (fix)

theorem pstep14_eq (tr : ATraits A R) (P : PSpec Ty V X) (m : Bool) (n : Nat) (σ : Spec.Boxes L A (Ty × V))
    (o : POp L A Ty V X) : Spec.pstep14 tr P m n σ o = Spec.pstep tr P m n σ (fix P.base o) := by
  cases o with
  | make x a c => cases c <;> rfl
  | _ => rfl

/-- What the argument needs to know about `polymorphic` of polymorphic_cxx14.h. -/
noncomputable def polymorphic14 (tr : ATraits A R) (P : PSpec Ty V X) (S : tr.Sound) (E : tr.Equality)
    (hq : tr.pocca = true → tr.alwaysEqual = true) : VApi L A R (PBody Ty V) (Ty × V) Nat (POp L A Ty V X) :=
  { polymorphic (L := L) tr P S with
    prog := Fine.Polymorphic14.step tr (Fine.plainP P)
    call := Polymorphic14.call tr (plainP P)
    call_eq := fun o e s => by
      rw [Fine.Polymorphic14.interp_step tr _ (Fine.plainP_same P)]; rfl
    safe := fun o e s I h => by
      show Safe _ (Polymorphic14.call tr (plainP P) o e s)
      rw [Polymorphic14.call_eq tr E P o e s (Polymorphic14.safe_of E hq s o)]
      exact (polymorphic (L := L) tr P S).safe _ e s I ((Polymorphic14.legal_fix P.base).2 h)
    within := fun F o hbp hop ho => Fine.Polymorphic14.within_step tr hbp P hop ho
    step := Spec.pstep14 tr P
    refines := fun s o e I h => by
      rw [pstep14_eq]
      have := (polymorphic (L := L) tr P S).refines s (fix P.base o) e I ((Polymorphic14.legal_fix P.base).2 h)
      rw [Polymorphic14.call_eq tr E P o e s (Polymorphic14.safe_of E hq s o)]
      exact this
    local_step := fun D σ σ' o m n h ho => by
      rw [pstep14_eq, pstep14_eq]
      exact (polymorphic (L := L) tr P S).local_step D σ σ' (fix P.base o) m n h (by
        show ∀ z ∈ Spec.poperands (fix P.base o), D z
        rw [Fine.Polymorphic14.poperands_fix]; exact ho) }

theorem ok14 {tr : ATraits A R} {P : PSpec Ty V X} {s : St L A R (PBody Ty V)} (S : tr.Sound) (E : tr.Equality)
    (hq : tr.pocca = true → tr.alwaysEqual = true) (h : Polymorphic14.Reach tr P s) :
    (polymorphic14 (L := L) tr P S E hq).Ok s :=
  ⟨((Polymorphic14.reach_of E hq h).sim S).1, ((Polymorphic14.reach_of E hq h).sim S).2.inv S⟩

end
end Conc
end Verif
