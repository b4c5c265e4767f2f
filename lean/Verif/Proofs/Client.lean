import Verif.Spec.Client
import Verif.Proofs.Query

/-!
Client programs run as on values.
-/

set_option autoImplicit false
set_option linter.unusedSectionVars false
set_option linter.unusedSimpArgs false

namespace Verif.Conc
open Verif

section
variable {L A R B V N C α β : Type} [DecidableEq L] [DecidableEq R] [Body B]

theorem client_run (api : VApi L A R B V N C) (p : Client C (Out L A V) α) : ∀ (es : Nat → Env) (s : St L A R B),
    api.Ok s → Spec.Careful api.step api.vlegal p (api.abs s) →
    Spec.EndsAs api.abs (p.run api.call es s) (Spec.runOn api.step p (Spec.luckOf api.call api.seed p es s) (api.abs s)) ∧
      ∀ a s', p.run api.call es s = .ok a s' → api.Ok s' := by
  induction p with
  | ret a =>
    intro es s ok _
    refine ⟨⟨rfl, rfl⟩, fun b s' h => ?_⟩
    cases h; exact ok
  | call c k ih =>
    intro es s ok hc
    obtain ⟨hl, hk⟩ := hc
    have h1 := api.safe c (es 0) s ok ((api.legal_eq s c).2 hl)
    have h2 := api.refines s c (es 0) ok hl
    have h3 := hk (available s (es 0)) (api.seed (es 0))
    have hk0 : Spec.luckOf api.call api.seed (.call c k) es s 0 = (available s (es 0), api.seed (es 0)) := by
      rw [Spec.luckOf]
    simp only [Client.run, Spec.runOn, hk0]
    cases hr : api.call c (es 0) s with
    | ok o s' =>
      rw [hr] at h1 h2
      simp only at h2
      rw [h2] at h3 ⊢
      simp only at h3 ⊢
      have := ih (.ret o) (fun i => es (i + 1)) s' h1 h3
      simp only [Spec.luckOf, hr]
      exact this
    | threw x s' =>
      rw [hr] at h1 h2
      simp only at h2
      rw [h2] at h3 ⊢
      simp only at h3 ⊢
      have := ih (.exn x) (fun i => es (i + 1)) s' h1 h3
      simp only [Spec.luckOf, hr]
      exact this
    | terminated =>
      rw [hr] at h2
      simp only at h2
      rw [h2]
      exact ⟨trivial, fun a s' h => by cases h⟩
    | ub u => rw [hr] at h1; exact h1.elim
    | diverged => rw [hr] at h1; exact h1.elim

theorem client_no_ub (api : VApi L A R B V N C) (p : Client C (Out L A V) α) {es : Nat → Env} {s : St L A R B}
    (ok : api.Ok s) (hc : Spec.Careful api.step api.vlegal p (api.abs s)) (u : UB) : p.run api.call es s ≠ .ub u := by
  intro h
  have := (client_run api p es s ok hc).1
  rw [h] at this
  exact this

theorem client_alike (api : VApi L A R B V N C) (p : Client C (Out L A V) α) {es es' : Nat → Env} {s s' : St L A R B}
    (ok : api.Ok s) (ok' : api.Ok s') (ha : api.abs s = api.abs s') (hc : Spec.Careful api.step api.vlegal p (api.abs s))
    (hl : Spec.luckOf api.call api.seed p es s = Spec.luckOf api.call api.seed p es' s') :
    Spec.EndAlike api.abs (p.run api.call es s) (p.run api.call es' s') := by
  have h1 := (client_run api p es s ok hc).1
  have h2 := (client_run api p es' s' ok' (ha ▸ hc)).1
  rw [← hl, ← ha] at h2
  cases hr : p.run api.call es s <;> rw [hr] at h1 <;>
    cases hv : Spec.runOn api.step p (Spec.luckOf api.call api.seed p es s) (api.abs s) <;> rw [hv] at h1 h2 <;>
    simp only [Spec.EndsAs] at h1 <;>
    cases hr' : p.run api.call es' s' <;> rw [hr'] at h2 <;> simp only [Spec.EndsAs] at h2
  · exact ⟨h1.1.trans h2.1.symm, h1.2.trans h2.2.symm⟩
  · trivial

theorem client_owned (api : VApi L A R B V N C) (p : Client C (Out L A V) α) {es : Nat → Env} {s s' : St L A R B} {a : α}
    (ok : api.Ok s) (hc : Spec.Careful api.step api.vlegal p (api.abs s)) (hr : p.run api.call es s = .ok a s') :
    Spec.OwnedOnce s' := by
  have ok' := (client_run api p es s ok hc).2 a s' hr
  exact ⟨fun p c h => api.owned s' p c ok' h, fun z h p h1 h2 => api.own s' z h p ok' h1 h2,
    fun z z' h h' p h1 h2 h3 h4 => api.uniq s' z z' h h' p ok' h1 h2 h3 h4⟩

end

section
variable {L A R V X α : Type} [DecidableEq L] [DecidableEq R]

theorem either_eq (tr : ATraits A R) (T : TSpec V X) (C : TCmp V) :
    (Indirect.either tr T C : Either (Op L A V X) (Query L V) → _) = call tr T C := by
  funext o e s; cases o <;> rfl

theorem either14_eq (tr : ATraits A R) (T : TSpec V X) (C : TCmp V) :
    (Indirect14.either tr T C : Either (Op L A V X) (Query14 L V) → _) = call14 tr T C := by
  funext o e s; cases o <;> rfl

end
end Verif.Conc
