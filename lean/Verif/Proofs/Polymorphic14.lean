import Verif.Spec.Polymorphic14
import Verif.Proofs.PolyTransfer

/-! The C++14 functions are the C++20 functions, except for two of them. -/

set_option autoImplicit false
set_option linter.unusedSectionVars false
set_option linter.unusedSimpArgs false

namespace Verif
namespace Polymorphic14
section
variable {L A R Ty V X : Type} [DecidableEq L] [DecidableEq R] [DecidableEq Ty]
variable (tr : ATraits A R) (P : POps (St L A R (PBody Ty V)) A Ty X)

/-- What the initializer-list constructors do instead: they make a `T`. -/
def fixCtor {L Ty X : Type} (base : Ty) : PCtor L Ty X → PCtor L Ty X
  | .ilist _ l us => .ilist base l us
  | c => c

/-- The call that the C++20 header has to be given for the same effect. -/
def fix {L A Ty V X : Type} (base : Ty) : POp L A Ty V X → POp L A Ty V X
  | .make x a c => .make x a (fixCtor base c)
  | o => o

theorem evalSrc_eq (u : Src L X) :
    (evalSrc u : M (St L A R (PBody Ty V)) (Fwd X)) = Polymorphic.evalSrc u := by cases u <;> rfl

theorem construct_eq (a : Option A) (c : PCtor L Ty X) :
    construct tr P a c = Polymorphic.construct tr P a (fixCtor P.base c) := by
  cases a <;> cases c <;> simp only [construct, Polymorphic.construct, evalSrc_eq, fixCtor] <;> rfl

theorem ctorMoveA_eq (E : tr.Equality) (a : A) (y : L) (s : St L A R (PBody Ty V))
    (hq : tr.pocca = true → ∀ k, s.hs y = some k → tr.eq a k.alloc = true) :
    ctorMoveA tr P a y s = Polymorphic.ctorMoveA tr P a y s := by
  unfold ctorMoveA Polymorphic.ctorMoveA M.noexceptIf
  cases hk : s.hs y with
  | none => simp [M.bind_eq, getH, hk]
  | some k =>
    by_cases h1 : tr.eq a k.alloc = true
    · by_cases h2 : tr.pocca = true <;> by_cases h3 : tr.alwaysEqual = true <;>
        simp [M.bind_eq, getH, hk, h1, h2, h3]
    · have h2 : tr.pocca = false := by
        cases h : tr.pocca
        · rfl
        · exact absurd (hq h k hk) h1
      have h3 : tr.alwaysEqual = false := by
        cases h : tr.alwaysEqual
        · rfl
        · exact absurd (E.always h _ _) h1
      simp only [M.bind_eq, getH, hk, h1, h2, h3, if_false, Bool.false_eq_true]
      rfl

theorem ctorMove_eq (E : tr.Equality) (y : L) (s : St L A R (PBody Ty V)) :
    ctorMove tr P y s = Polymorphic.ctorMove tr P y s := by
  unfold ctorMove Polymorphic.ctorMove
  cases hk : s.hs y with
  | none => cases h : tr.alwaysEqual <;> simp [M.bind_eq, M.noexceptIf, getH, hk]
  | some k =>
    have := ctorMoveA_eq tr P E k.alloc y s (fun _ k' hk' => by rw [hk] at hk'; cases hk'; exact E.refl _)
    have h : ∃ r s', Polymorphic.ctorMoveA tr P k.alloc y s = .ok r s' := by
      unfold Polymorphic.ctorMoveA M.noexceptIf
      cases h3 : tr.alwaysEqual <;>
        simp only [M.bind_eq, getH, hk, h3, E.refl, setP, if_true, if_false, Bool.false_eq_true] <;> exact ⟨_, _, rfl⟩
    obtain ⟨r, s', h⟩ := h
    cases ha : tr.alwaysEqual <;> simp [M.bind_eq, M.noexceptIf, getH, hk, this, h]

/-- The only states in which the allocator-extended move constructors differ. -/
def Safe (tr : ATraits A R) (s : St L A R (PBody Ty V)) : POp L A Ty V X → Prop
  | .moveA _ a y => tr.pocca = true → ∀ k, s.hs y = some k → tr.eq a k.alloc = true
  | _ => True

theorem step_eq (E : tr.Equality) (o : POp L A Ty V X) (s : St L A R (PBody Ty V)) (hs : Safe tr s o) :
    step tr P o s = Polymorphic.step tr P (fix P.base o) s := by
  cases o with
  | move x y => simp only [step, Polymorphic.step, fix, M.bind_eq, ctorMove_eq tr P E]
  | moveA x a y =>
    simp only [step, Polymorphic.step, fix, M.bind_eq]
    rw [ctorMoveA_eq tr P E a y s hs]
  | make x a c => simp only [step, Polymorphic.step, fix, construct_eq]
  | _ => rfl

theorem call_eq (E : tr.Equality) (P : PSpec Ty V X) (o : POp L A Ty V X) (e : Env) (s : St L A R (PBody Ty V))
    (hs : Safe tr s o) :
    call tr (plainP P) o e s = Polymorphic.call tr (plainP P) (fix P.base o) e s :=
  step_eq tr (plainP P) E o (s.enter e) (by cases o <;> exact hs)

theorem safe_of {tr : ATraits A R} (E : tr.Equality) (hq : tr.pocca = true → tr.alwaysEqual = true)
    (s : St L A R (PBody Ty V)) (o : POp L A Ty V X) : Safe tr s o := by
  cases o <;> try trivial
  exact fun h k _ => E.always (hq h) _ _

theorem legal_fix {tr : ATraits A R} {σ : Spec.Boxes L A (Ty × V)} {o : POp L A Ty V X} (base : Ty) :
    Spec.PLegal tr σ (fix base o) ↔ Spec.PLegal tr σ o := by
  cases o with
  | make x a c => cases c <;> exact .rfl
  | _ => exact .rfl

theorem reach_of {tr : ATraits A R} (E : tr.Equality) (hq : tr.pocca = true → tr.alwaysEqual = true)
    {P : PSpec Ty V X} {s : St L A R (PBody Ty V)} (h : Reach tr P s) : Polymorphic.Reach tr P s := by
  induction h with
  | init => exact .init
  | ret o e out _ hl hc ih =>
    exact .ret _ e out ih ((legal_fix P.base).2 hl) (by rw [← call_eq tr E P o e _ (safe_of E hq _ _)]; exact hc)
  | threw o e x _ hl hc ih =>
    exact .threw _ e x ih ((legal_fix P.base).2 hl) (by rw [← call_eq tr E P o e _ (safe_of E hq _ _)]; exact hc)

theorem Reach.run {tr : ATraits A R} {P : PSpec Ty V X} {s s' : St L A R (PBody Ty V)} {cs : List (POp L A Ty V X × Env)}
    {log : List (Seen (Out L A (Ty × V)))} (h : Reach tr P s)
    (hl : LegalRun tr P cs s) (hr : Polymorphic14.run tr P cs s = .done log s') : Reach tr P s' := by
  induction cs generalizing s log with
  | nil => simp [Polymorphic14.run, runWith] at hr; rw [← hr.2]; exact h
  | cons c cs ih =>
    simp only [Polymorphic14.run, runWith, LegalRun, LegalWith] at hr hl
    obtain ⟨h0, h1⟩ := hl
    cases hc : Polymorphic14.call tr (plainP P) c.1 c.2 s with
    | ok out s₁ =>
      simp only [hc] at hr h1
      cases hd : runWith (fun c s => Polymorphic14.call tr (plainP P) c.1 c.2 s) cs s₁ <;> rw [hd] at hr <;>
        simp [Run.cons] at hr
      obtain ⟨_, rfl⟩ := hr
      exact ih (.ret _ _ _ h h0 hc) h1 hd
    | threw x s₁ =>
      simp only [hc] at hr h1
      cases hd : runWith (fun c s => Polymorphic14.call tr (plainP P) c.1 c.2 s) cs s₁ <;> rw [hd] at hr <;>
        simp [Run.cons] at hr
      obtain ⟨_, rfl⟩ := hr
      exact ih (.threw _ _ _ h h0 hc) h1 hd
    | ub u => simp [hc] at hr
    | terminated => simp [hc] at hr
    | diverged => simp [hc] at hr

/-- A history for the C++20 header with the same effect. -/
def fixes {L A Ty V X : Type} (base : Ty) (cs : List (POp L A Ty V X × Env)) : List (POp L A Ty V X × Env) :=
  cs.map fun c => (fix base c.1, c.2)

theorem run_eq {tr : ATraits A R} (E : tr.Equality) (hq : tr.pocca = true → tr.alwaysEqual = true) (P : PSpec Ty V X)
    (cs : List (POp L A Ty V X × Env)) (s : St L A R (PBody Ty V)) :
    run tr P cs s = Polymorphic.run tr P (fixes P.base cs) s ∧
      (LegalRun tr P cs s ↔ Polymorphic.LegalRun tr P (fixes P.base cs) s) := by
  induction cs generalizing s with
  | nil => exact ⟨rfl, .rfl⟩
  | cons c cs ih =>
    simp only [run, runWith, Polymorphic.run, fixes, List.map_cons, LegalRun, LegalWith, Polymorphic.LegalRun,
      legal_fix]
    have hc := call_eq tr E P c.1 c.2 s (safe_of E hq s c.1)
    cases h : Polymorphic.call tr (plainP P) (fix P.base c.1) c.2 s with
    | ok out s' =>
      rw [h] at hc; simp only [hc]
      exact ⟨congrArg _ (ih s').1, and_congr_right fun _ => (ih s').2⟩
    | threw x s' =>
      rw [h] at hc; simp only [hc]
      exact ⟨congrArg _ (ih s').1, and_congr_right fun _ => (ih s').2⟩
    | ub u => rw [h] at hc; simp [hc]
    | terminated => rw [h] at hc; simp [hc]
    | diverged => rw [h] at hc; simp [hc]

end
end Polymorphic14
end Verif
