import Verif.Proofs.IndirectExact
import Verif.Proofs.IndirectKeeps

/-! Reachable states satisfy the invariant; histories refine the specification. -/

set_option autoImplicit false
set_option linter.unusedSectionVars false
set_option linter.unusedSimpArgs false

namespace Verif.Indirect
open Verif

section
variable {L A R V X : Type} [DecidableEq L] [DecidableEq R]
variable {tr : ATraits A R} {T : TSpec V X} {s s' : St L A R (Obj V)} {o : Op L A V X} {e : Env}

theorem call_refines' (S : tr.Sound) (I : IInv tr s) (h : Spec.Legal tr (abs s) o) :
    Refines tr (call tr (plain T) o e s) (Spec.step tr T (available s e) (e.choice 0) (abs s) o) :=
  step_refines (s := s.enter e) S I h

theorem Refines.inv_ok {out : Out L A V} {r : Spec.Result L A V} (h : Refines tr (.ok out s) r) : IInv tr s := by
  cases r <;> simp only [Refines] at h
  exact h.2.2

theorem Refines.inv_threw {x : Exn} {r : Spec.Result L A V} (h : Refines tr (.threw x s) r) : IInv tr s := by
  cases r <;> simp only [Refines] at h
  exact h.2.2

theorem Reach.inv (S : tr.Sound) (h : Reach tr T s) : IInv tr s := by
  induction h with
  | init => exact Inv.init
  | ret o e out _ hl hc ih =>
    have := call_refines' (T := T) (e := e) S ih hl
    rw [hc] at this
    exact Refines.inv_ok this
  | threw o e x _ hl hc ih =>
    have := call_refines' (T := T) (e := e) S ih hl
    rw [hc] at this
    exact Refines.inv_threw this

theorem Reach.traceOk (h : Reach tr T s) : TraceOk s := by
  induction h with
  | init => exact rfl
  | ret o e out _ hl hc ih =>
    have := traceOk_call tr T o e _ ih; rw [hc] at this; exact this
  | threw o e x _ hl hc ih =>
    have := traceOk_call tr T o e _ ih; rw [hc] at this; exact this

theorem call_refines (S : tr.Sound) (h : Reach tr T s) (hl : Spec.Legal tr (abs s) o) :
    Refines tr (call tr (plain T) o e s) (Spec.step tr T (available s e) (e.choice 0) (abs s) o) :=
  call_refines' S (h.inv S) hl

theorem Reach.run {cs : List (Op L A V X × Env)} {log : List (Seen (Out L A V))} (h : Reach tr T s)
    (hl : LegalRun tr T cs s) (hr : Indirect.run tr T cs s = .done log s') : Reach tr T s' := by
  induction cs generalizing s log with
  | nil => simp [Indirect.run, runWith] at hr; rw [← hr.2]; exact h
  | cons c cs ih =>
    simp only [Indirect.run, runWith, LegalRun, LegalWith] at hr hl
    obtain ⟨h0, h1⟩ := hl
    cases hc : call tr (plain T) c.1 c.2 s with
    | ok out s₁ =>
      simp only [hc] at hr h1
      cases hd : runWith (fun c s => call tr (plain T) c.1 c.2 s) cs s₁ <;> rw [hd] at hr <;>
        simp [Run.cons] at hr
      obtain ⟨_, rfl⟩ := hr
      exact ih (.ret _ _ _ h h0 hc) h1 hd
    | threw x s₁ =>
      simp only [hc] at hr h1
      cases hd : runWith (fun c s => call tr (plain T) c.1 c.2 s) cs s₁ <;> rw [hd] at hr <;>
        simp [Run.cons] at hr
      obtain ⟨_, rfl⟩ := hr
      exact ih (.threw _ _ _ h h0 hc) h1 hd
    | terminated => simp [hc] at hr
    | ub u => simp [hc] at hr
    | diverged => simp [hc] at hr

/-- Outcome of a history against outcome of the specification. -/
def RunRefines (tr : ATraits A R) : Run (St L A R (Obj V)) (Out L A V) → Spec.SRun L A V → Prop
  | .done log s', .done log' σ => log = log' ∧ abs s' = σ ∧ IInv tr s'
  | .terminated log, .terminated log' => log = log'
  | _, _ => False

theorem RunRefines.cons {r : Run (St L A R (Obj V)) (Out L A V)} {r' : Spec.SRun L A V}
    (h : RunRefines tr r r') (o : Seen (Out L A V)) : RunRefines tr (r.cons o) (r'.cons o) := by
  cases r <;> cases r' <;> simp_all [RunRefines, Run.cons, Spec.SRun.cons]

theorem run_refines (S : tr.Sound) (I : IInv tr s) {cs : List (Op L A V X × Env)} (hl : LegalRun tr T cs s) :
    RunRefines tr (Indirect.run tr T cs s) (Spec.run tr T (lucks tr T cs s) (abs s)) := by
  induction cs generalizing s with
  | nil => exact ⟨rfl, rfl, I⟩
  | cons c cs ih =>
    rcases c with ⟨o, e⟩
    simp only [Indirect.run, runWith, LegalRun, LegalWith, lucks, Spec.run] at hl ⊢
    obtain ⟨h0, h1⟩ := hl
    have hc := call_refines' (T := T) (e := e) S I h0
    revert hc
    generalize Spec.step tr T (available s e) (e.choice 0) (abs s) o = r
    intro hc
    cases hcall : call tr (plain T) o e s with
    | ok out s₁ =>
      rw [hcall] at hc
      cases r <;> simp only [Refines] at hc
      obtain ⟨rfl, rfl, I₁⟩ := hc
      simp only [hcall] at h1
      exact (ih I₁ h1).cons _
    | threw x s₁ =>
      rw [hcall] at hc
      cases r <;> simp only [Refines] at hc
      obtain ⟨rfl, rfl, I₁⟩ := hc
      simp only [hcall] at h1
      exact (ih I₁ h1).cons _
    | terminated =>
      rw [hcall] at hc
      cases r <;> simp only [Refines] at hc
      rfl
    | ub u => rw [hcall] at hc; cases r <;> simp [Refines] at hc
    | diverged => rw [hcall] at hc; cases r <;> simp [Refines] at hc

end
end Verif.Indirect
