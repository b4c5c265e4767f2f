import Verif.Spec.Careful14
import Verif.Proofs.Polymorphic14
import Verif.Props.PolySafety

/-!
# Careful histories with polymorphic_cxx14.h
-/

set_option autoImplicit false
set_option linter.unusedSectionVars false
set_option linter.unusedSimpArgs false

namespace Verif.Polymorphic14
open Polymorphic (abs)
section
variable {L A R Ty V X : Type} [DecidableEq L] [DecidableEq R] [DecidableEq Ty]
variable {tr : ATraits A R}

theorem ctorMoveA_null (P : POps (St L A R (PBody Ty V)) A Ty X) (a : A) (y : L) (s : St L A R (PBody Ty V)) {k : Handle A}
    (hk : s.hs y = some k) (hp : k.p = none) : ctorMoveA tr P a y s = Polymorphic.ctorMoveA tr P a y s := by
  have hu : upd s.hs y (some { k with p := none }) = s.hs := by
    funext z
    by_cases hz : z = y
    · subst hz; rw [upd_same, hk, ← hp]
    · rw [upd_other _ _ hz]
  have hset : setP y none s = .ok () s := by
    unfold setP
    rw [hk]
    simp only [hu]
  unfold ctorMoveA Polymorphic.ctorMoveA M.noexceptIf
  cases h1 : tr.pocca <;> cases h2 : tr.alwaysEqual <;> cases h3 : tr.eq a k.alloc <;>
    simp only [M.bind_eq, getH, hk, h1, h2, h3, hset, hp, valueless, Polymorphic.valueless, Indirect.valueless, M.pure_eq,
      if_true, if_false, Bool.false_eq_true, beq_self_eq_true, Bool.not_true, Bool.not_false]

theorem careful_call (S : tr.Sound) (E : tr.Equality) {P : PSpec Ty V X} {s : St L A R (PBody Ty V)} (h : Polymorphic.Reach tr P s)
    {o : POp L A Ty V X} (hc : Careful tr (abs s) o) (e : Env) :
    call tr (plainP P) o e s = Polymorphic.call tr (plainP P) (fix P.base o) e s := by
  cases o with
  | moveA x a y =>
    cases hk : s.hs y with
    | none => exact call_eq tr E P _ e s (by intro _ k hk'; rw [hk] at hk'; cases hk')
    | some k =>
      cases hp : k.p with
      | none =>
        unfold call Polymorphic.call step fix Polymorphic.step
        simp only [M.bind_eq]
        rw [ctorMoveA_null (tr := tr) (plainP P) a y (s.enter e) (k := k) hk hp]
      | some p =>
        refine call_eq tr E P _ e s ?_
        intro hq k' hk'
        rw [hk] at hk'; cases hk'
        obtain ⟨r, ty, v, _, hv⟩ := Props.C31_control_blocks_complete S h (x := y) (p := p) (by simp [addr, hk, hp])
        have : ∃ b, abs s y = some b := by simp [abs, absWith, hk]
        obtain ⟨⟨b, w⟩, hb⟩ := this
        have hw : w = some (ty, v) := by simpa [Spec.valueOf, hb] using hv
        subst hw
        have hb' : b = k.alloc := by
          have := hb
          simp [abs, absWith, hk] at this
          exact this.1.symm
        rw [← hb']
        exact hc hq b _ hb
  | _ => exact call_eq tr E P _ e s trivial

theorem careful_run (S : tr.Sound) (E : tr.Equality) {P : PSpec Ty V X} {cs : List (POp L A Ty V X × Env)}
    {s : St L A R (PBody Ty V)} (h : Polymorphic.Reach tr P s) (hc : CarefulRun tr P cs s) :
    run tr P cs s = Polymorphic.run tr P (fixes P.base cs) s ∧ Polymorphic.LegalRun tr P (fixes P.base cs) s := by
  induction cs generalizing s with
  | nil => exact ⟨rfl, trivial⟩
  | cons c cs ih =>
    simp only [CarefulRun, LegalWith] at hc
    obtain ⟨⟨h1, h2⟩, h3⟩ := hc
    have k := careful_call S E h h2 c.2
    have hl := (legal_fix (tr := tr) (o := c.1) P.base).2 h1
    simp only [run, runWith, Polymorphic.run, fixes, List.map_cons, Polymorphic.LegalRun, LegalWith]
    rw [k] at h3 ⊢
    cases hr : Polymorphic.call tr (plainP P) (fix P.base c.1) c.2 s with
    | ok out s' =>
      rw [hr] at h3
      have := ih (.ret _ _ _ h hl hr) h3
      exact ⟨congrArg (Run.cons _) this.1, hl, this.2⟩
    | threw x s' =>
      rw [hr] at h3
      have := ih (.threw _ _ _ h hl hr) h3
      exact ⟨congrArg (Run.cons _) this.1, hl, this.2⟩
    | _ => exact ⟨rfl, hl, trivial⟩

theorem fixes_eq {P : PSpec Ty V X} {cs : List (POp L A Ty V X × Env)} (hc : NoDerivedLists P cs) : fixes P.base cs = cs := by
  unfold fixes
  refine (List.map_congr_left (g := id) fun c hm => ?_).trans (List.map_id cs)
  obtain ⟨o, e⟩ := c
  cases o with
  | make x a k =>
    cases k with
    | ilist ty l us => rw [hc _ hm x a ty l us rfl]; rfl
    | _ => rfl
  | _ => rfl

end
end Verif.Polymorphic14
