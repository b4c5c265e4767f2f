import Verif.Proofs.Concurrent
import Verif.Proofs.Fine
import Verif.Props.Threads

/-!
What `Proofs/Concurrent.lean` has to know about `indirect` and `polymorphic`.
-/

set_option autoImplicit false
set_option linter.unusedSectionVars false
set_option linter.unusedSimpArgs false

namespace Verif.Conc
open Verif

/-- The invariant of a part of the memory. -/
theorem inv_part {L A R B : Type} {res : A → R} {good : Addr → B → Prop} {s : St L A R B}
    (I : Inv res good s.hs s.heap) (U : L → Prop) : Inv res good (part s U).hs (part s U).heap := by
  have hh : ∀ l h, (part s U).hs l = some h → U l ∧ s.hs l = some h := by
    intro l h hl
    simp only [part] at hl
    split at hl
    · exact ⟨by assumption, hl⟩
    · cases hl
  constructor
  · intro l h p hl hp
    obtain ⟨hu, hl⟩ := hh l h hl
    obtain ⟨b, hb, hg⟩ := I.own l h p hl hp
    refine ⟨b, ?_, hg⟩
    simp only [part]
    rw [if_pos ⟨l, h, hu, hl, hp⟩]
    exact hb
  · intro l l' h h' p hl hl' hp hp'
    exact I.uniq l l' h h' p (hh _ _ hl).2 (hh _ _ hl').2 hp hp'
  · intro p c hc
    simp only [part] at hc
    split at hc
    · rename_i hx
      obtain ⟨z, h, hu, hz, hp⟩ := hx
      refine ⟨z, h, ?_, hp⟩
      simp only [part]
      rw [if_pos hu]; exact hz
    · cases hc

theorem absWith_local {L A R B W : Type} {val : B → Option W} {s s' : St L A R B} {z : L} (hs : s.hs z = s'.hs z)
    (hp : ∀ h p, s.hs z = some h → h.p = some p → s.heap p = s'.heap p) :
    absWith val s.hs s.heap z = absWith val s'.hs s'.heap z := by
  simp only [absWith, ← hs]
  cases hz : s.hs z with
  | none => rfl
  | some h =>
    simp only [Option.map_some, Option.some.injEq, Spec.Box.mk.injEq, true_and]
    cases hq : h.p with
    | none => rfl
    | some p => simp only [Option.bind_some, hp h p hz hq]

section
variable {L A R V X : Type} [DecidableEq L] [DecidableEq R]
open Indirect

/-- What the argument needs to know about `indirect`. -/
noncomputable def indirect (tr : ATraits A R) (T : TSpec V X) (S : tr.Sound) : VApi L A R (Obj V) V Nat (Op L A V X) where
  prog := Fine.Indirect.step tr (Fine.plain T)
  call := call tr (plain T)
  legal s o := Spec.Legal tr (abs s) o
  operands := Spec.operands
  changes := Spec.changes
  Ok := IInv tr
  bp _ := none
  call_eq o e s := by
    rw [Fine.Indirect.interp_step tr (Fine.plain_same T)]; rfl
  chg _ _ hz := Decidable.not_not.1 fun hn => changes_operands hn hz
  okPart s U I := inv_part I U
  safe o e s I h := by
    have := call_refines' (T := T) (e := e) S I h
    cases hc : call tr (plain T) o e s <;> rw [hc] at this
    · exact this.inv_ok
    · exact this.inv_threw
    · trivial
    · cases hr : Spec.step tr T (available s e) (e.choice 0) (abs s) o <;> rw [hr] at this <;> exact this
    · cases hr : Spec.step tr T (available s e) (e.choice 0) (abs s) o <;> rw [hr] at this <;> exact this
  within F o hbp hop ho := Fine.Indirect.within_step (by intro b; rw [hbp]) tr T hop ho
  own s l h p I hl hp := by
    obtain ⟨b, hb, -⟩ := I.own l h p hl hp
    rw [hb]; simp
  uniq s l l' h h' p I := I.uniq l l' h h' p
  owned s p c I := I.owned p c
  body s p c r I _ hr := by cases hr
  raw := rfl
  abs := abs
  seed e := e.choice 0
  vlegal := Spec.Legal tr
  step := Spec.step tr T
  legal_eq _ _ := Iff.rfl
  refines s o e I h := by
    have := call_refines' (T := T) (e := e) S I h
    cases hc : call tr (plain T) o e s <;> rw [hc] at this <;>
      cases hr : Spec.step tr T (available s e) (e.choice 0) (abs s) o <;> rw [hr] at this <;>
        simp only [Refines] at this <;> try trivial
    · obtain ⟨rfl, rfl, -⟩ := this; rfl
    · obtain ⟨rfl, rfl, -⟩ := this; rfl
  local_legal D σ σ' o h ho := legal_agree h ho
  local_step D σ σ' o m n h ho := step_agree h ho
  local_abs s s' z hs hp := absWith_local hs hp

end

section
variable {L A R Ty V X : Type} [DecidableEq L] [DecidableEq R] [DecidableEq Ty]
open Polymorphic

theorem view_part (s : St L A R (PBody Ty V)) (U : L → Prop) : view (part s U) = part (view s) U := by
  have e : ∀ a b : St L A R (Obj (Ty × V)), a.hs = b.hs → a.heap = b.heap → a.trace = b.trace → a.env = b.env → a.ai = b.ai →
      a.ti = b.ti → a = b := by
    rintro ⟨⟩ ⟨⟩; simp_all
  refine e _ _ rfl ?_ rfl rfl rfl rfl
  funext p
  by_cases h : ∃ z h, U z ∧ s.hs z = some h ∧ h.p = some p
  · have h' : ∃ z h, U z ∧ (view s).hs z = some h ∧ h.p = some p := h
    simp only [view, part]
    rw [if_pos h]; exact (if_pos h').symm
  · have h' : ¬ ∃ z h, U z ∧ (view s).hs z = some h ∧ h.p = some p := h
    simp only [view, part]
    rw [if_neg h]; exact (if_neg h').symm

theorem good_part {s : St L A R (PBody Ty V)} (G : Polymorphic.Good s) (U : L → Prop) : Polymorphic.Good (part s U) := by
  intro p r c v hp
  simp only [part] at hp
  split at hp
  · exact G p r c v hp
  · cases hp

theorem prefines {tr : ATraits A R} {P : PSpec Ty V X} (S : tr.Sound) {s : St L A R (PBody Ty V)} {o : POp L A Ty V X} (e : Env)
    (G : Polymorphic.Good s) (I : Indirect.IInv tr (view s)) (h : Spec.PLegal tr (abs s) o) :
    match call tr (plainP P) o e s with
    | .ok out s' => (Polymorphic.Good s' ∧ Indirect.IInv tr (view s')) ∧
        Spec.pstep tr P (available s e) (e.choice 0) (abs s) o = .ret out (abs s')
    | .threw x s' => (Polymorphic.Good s' ∧ Indirect.IInv tr (view s')) ∧
        Spec.pstep tr P (available s e) (e.choice 0) (abs s) o = .threw x (abs s')
    | .terminated => Spec.pstep tr P (available s e) (e.choice 0) (abs s) o = .terminated
    | _ => False := by
  have h1 := call_sim (P := P) G I o e h
  have h2 := Indirect.call_refines' (T := P.owned) (e := e) S I (by rw [abs_view]; exact legal_toOp h)
  rw [abs_view, step_toOp] at h2
  have ha : available (view s) e = available s e := by simp [available, view]
  rw [ha] at h2
  cases hc : call tr (plainP P) o e s <;> rw [hc] at h1 <;> simp only [RSim] at h1
  · rw [h1.2] at h2
    cases hr : Spec.pstep tr P (available s e) (e.choice 0) (abs s) o <;> rw [hr] at h2 <;>
      simp only [Indirect.Refines] at h2
    obtain ⟨rfl, h3, h4⟩ := h2
    rw [abs_view] at h3
    exact ⟨⟨h1.1, h4⟩, by rw [h3]⟩
  · rw [h1.2] at h2
    cases hr : Spec.pstep tr P (available s e) (e.choice 0) (abs s) o <;> rw [hr] at h2 <;>
      simp only [Indirect.Refines] at h2
    obtain ⟨rfl, h3, h4⟩ := h2
    rw [abs_view] at h3
    exact ⟨⟨h1.1, h4⟩, by rw [h3]⟩
  · rw [h1] at h2
    cases hr : Spec.pstep tr P (available s e) (e.choice 0) (abs s) o <;> rw [hr] at h2 <;>
      simp only [Indirect.Refines] at h2
  · obtain ⟨u, h1⟩ := h1
    rw [h1] at h2
    cases hr : Spec.pstep tr P (available s e) (e.choice 0) (abs s) o <;> rw [hr] at h2 <;>
      simp only [Indirect.Refines] at h2
  · rw [h1] at h2
    cases hr : Spec.pstep tr P (available s e) (e.choice 0) (abs s) o <;> rw [hr] at h2 <;>
      simp only [Indirect.Refines] at h2

/-- What the argument needs to know about `polymorphic`. -/
noncomputable def polymorphic (tr : ATraits A R) (P : PSpec Ty V X) (S : tr.Sound) :
    VApi L A R (PBody Ty V) (Ty × V) Nat (POp L A Ty V X) where
  prog := Fine.Polymorphic.step tr (Fine.plainP P)
  call := call tr (plainP P)
  legal s o := Spec.PLegal tr (abs s) o
  operands := Spec.poperands
  changes := Spec.pchanges
  Ok s := Polymorphic.Good s ∧ Indirect.IInv tr (view s)
  bp := cbPtr
  call_eq o e s := by
    rw [Fine.Polymorphic.interp_step tr (Fine.plainP_same P)]; rfl
  chg _ _ hz := Props.pchanges_poperands hz
  okPart s U I := ⟨good_part I.1 U, by rw [view_part]; exact inv_part I.2 U⟩
  safe o e s I h := by
    have := prefines (P := P) S e I.1 I.2 h
    cases hc : call tr (plainP P) o e s <;> rw [hc] at this
    · exact this.1
    · exact this.1
    · trivial
    · exact this
    · exact this
  within F o hbp hop ho := Fine.Polymorphic.within_step hbp tr P hop ho
  own s l h p I hl hp := by
    obtain ⟨b, hb, -⟩ := I.2.own l h p hl hp
    simp only [view] at hb
    intro hn
    rw [hn] at hb; cases hb
  uniq s l l' h h' p I := I.2.uniq l l' h h' p
  owned s p c I hc := I.2.owned p (viewCell c) (by simp [view, hc])
  body s p c r I hc hr := by
    obtain ⟨l, h, hl, hp⟩ := I.2.owned p (viewCell c) (by simp [view, hc])
    obtain ⟨b, hb, hg⟩ := I.2.own l h p hl hp
    simp only [view, hc, Option.map_some, Option.some.injEq, viewCell, Cell.mk.injEq] at hb
    obtain ⟨ar, body⟩ := c
    cases body with
    | none => cases hr
    | some cb =>
      obtain ⟨-, rfl⟩ := hb
      cases hu : cb.u with
      | none => simp [viewBody, hu] at hg
      | some v =>
        have := I.1 p ar cb v hc hu
        simp only [cbPtr, Option.bind_some, this, Option.some.injEq] at hr
        exact hr.symm
  raw := rfl
  abs := abs
  seed e := e.choice 0
  vlegal := Spec.PLegal tr
  step := Spec.pstep tr P
  legal_eq _ _ := Iff.rfl
  refines s o e I h := by
    have := prefines (P := P) S e I.1 I.2 h
    cases hc : call tr (plainP P) o e s <;> rw [hc] at this
    · exact this.2
    · exact this.2
    · exact this
    · exact this
    · exact this
  local_legal D σ σ' o h ho := Props.plegal_agree h ho
  local_step D σ σ' o m n h ho := by
    rw [← step_toOp, ← step_toOp]
    exact Indirect.step_agree h (by rw [operands_toOp]; exact ho)
  local_abs s s' z hs hp := absWith_local hs hp

end
end Verif.Conc
