import Verif.Spec.CarefulAware
import Verif.Proofs.Careful14
import Verif.Proofs.AwareReach
import Verif.Proofs.CountingReach

/-!
# Careful histories with polymorphic_cxx14.h: values that use their owner's allocator, allocators that count
-/

set_option autoImplicit false
set_option linter.unusedSectionVars false
set_option linter.unusedSimpArgs false

namespace Verif.Polymorphic14
open Polymorphic (abs)
open Composite (POk)
section
variable {L A R Ty V X : Type} [DecidableEq L] [DecidableEq R] [DecidableEq Ty]
variable {tr : ATraits A R}

theorem careful_full (E : tr.Equality) (P : POps (St L A R (PBody Ty V)) A Ty X) {s : St L A R (PBody Ty V)} (F : Polymorphic.Full s)
    {o : POp L A Ty V X} (hc : Careful tr (abs s) o) (e : Env) :
    call tr P o e s = Polymorphic.call tr P (fix P.base o) e s := by
  cases o with
  | moveA x a y =>
    cases hk : s.hs y with
    | none => exact step_eq tr P E _ (s.enter e) (by intro _ k hk'; rw [show (s.enter e).hs y = none from hk] at hk'; cases hk')
    | some k =>
      cases hp : k.p with
      | none =>
        unfold call Polymorphic.call step fix Polymorphic.step
        simp only [M.bind_eq]
        rw [ctorMoveA_null (tr := tr) P a y (s.enter e) (k := k) hk hp]
      | some p =>
        refine step_eq tr P E _ (s.enter e) ?_
        intro hq k' hk'
        rw [show (s.enter e).hs y = some k from hk] at hk'; cases hk'
        obtain ⟨r, ty, v, hv⟩ := F y k p hk hp
        exact hc hq k.alloc (ty, v) (by simp [abs, absWith, hk, hp, hv])
  | _ => exact step_eq tr P E _ (s.enter e) trivial

theorem pok_full {s : St L A R (PBody Ty V)} (h : POk tr s) : Polymorphic.Full s := Polymorphic.full_of h.1 h.2.1

theorem careful_aware_does (S : tr.Sound) (E : tr.Equality) {s : St L A R (PBody Ty V)} (hs : POk tr s) (P : PAwareSpec A Ty V X)
    (o : POp L A Ty V X) (e : Env) (hl : Spec.PLegal tr (abs s) o) (hc : Careful tr (abs s) o) :
    (call tr (awareP P) o e s).All (POk tr) ∧
      Spec.Does abs (call tr (awareP P) o e s)
        (Spec.pstep14 tr (P.at (Spec.phome tr (abs s) o)) (available s e) (e.choice 0) (abs s) o) := by
  rw [careful_full E (awareP P) (pok_full hs) hc, Conc.pstep14_eq]
  have := Polymorphic.awareP_does S hs P (fix P.base o) e ((legal_fix P.base).2 hl)
  rw [phome_fix] at this
  exact this

theorem careful_count_does (S : tr.Sound) (E : tr.Equality) {s : St L A R (PBody Ty V)} (hs : Polymorphic.CountOk tr s)
    (P : PSpec Ty V X) (o : POp L A Ty V X) (e : Env) (hl : Spec.PLegal tr (abs s) o) (hc : Careful tr (abs s) o) :
    (call tr (countingP tr (plainP P)) o e s).All (Polymorphic.CountOk tr) ∧
      Spec.Does abs (call tr (countingP tr (plainP P)) o e s) (Spec.pstep14 tr P (available s e) (e.choice 0) (abs s) o) := by
  rw [careful_full E (countingP tr (plainP P)) (s := s) (show Polymorphic.Full s from pok_full (s := Counted.bare s) hs.2) hc, Conc.pstep14_eq]
  exact Polymorphic.count_does S hs P (fix P.base o) e ((legal_fix P.base).2 hl)

variable {P : PAwareSpec A Ty V X} {Q : PSpec Ty V X} {k : POp L A Ty V X → Prop} {s : St L A R (PBody Ty V)}

theorem CarefulAwareReach.ok (S : tr.Sound) (E : tr.Equality) (h : CarefulAwareReach tr P k s) : POk tr s :=
  Spec.ReachedBy.inv (init := St.init) ⟨Polymorphic.good_init, Inv.init, rfl⟩
    (fun _ o e hs hl => (careful_aware_does S E hs P o e hl.1.1 hl.1.2).1) h

theorem CarefulAwareReach.home {uses : Ty → V → R} (S : tr.Sound) (E : tr.Equality) (hP : Spec.PStays tr P uses)
    (h : CarefulAwareReach tr P (Spec.PKeepsHome uses) s) : Spec.AtHome tr (fun v => uses v.1 v.2) (abs s) :=
  (Spec.ReachedBy.inv (P := fun s => POk tr s ∧ Spec.AtHome tr (fun v => uses v.1 v.2) (abs s))
    ⟨⟨Polymorphic.good_init, Inv.init, rfl⟩, fun _ _ _ h => by cases h⟩
    (fun s o e hs hl =>
      have d := careful_aware_does S E hs.1 P o e hl.1.1 hl.1.2
      d.1.both (d.2.keeps (phome_step S hP hs.2 _ _ o hl.1.1 hl.2))) h).2

theorem CarefulCountReach.ok (S : tr.Sound) (E : tr.Equality) (h : CarefulCountReach tr Q s) : Polymorphic.CountOk tr s :=
  Spec.ReachedBy.inv (init := St.init) ⟨⟨fun _ => rfl, fun _ => ⟨rfl, rfl⟩⟩, Polymorphic.good_init, Inv.init, rfl⟩
    (fun _ o e hs hl => (careful_count_does S E hs Q o e hl.1 hl.2).1) h

end
end Verif.Polymorphic14
