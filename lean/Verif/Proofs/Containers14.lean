import Verif.Containers14
import Verif.Proofs.VectorUniform
import Verif.Proofs.Polymorphic14

/-! # The types of the C++14 headers as members, alternatives and elements -/

set_option autoImplicit false
set_option linter.unusedSectionVars false

namespace Verif.Containers14
open Verif Spec Vector
section
variable {L A R V X Ty : Type} [DecidableEq L] [DecidableEq R] [DecidableEq Ty] {tr : ATraits A R}

/-- The arguments that make `polymorphic` of the C++20 header construct the same object. -/
def fixArgs (base : Ty) : Option Ty → TArgs X → Option Ty
  | some _, .ilist _ _ => some base
  | t, _ => t

theorem fix_pctorOf (base : Ty) (t : Option Ty) (as : TArgs X) :
    Polymorphic14.fixCtor base (Holder.pctorOf (L := L) t as) = Holder.pctorOf (fixArgs base t as) as := by
  cases t <;> cases as <;> rfl

theorem call_same (E : tr.Equality) (P : PSpec Ty V X) (o : POp L A Ty V X) (e : Env) (s : St L A R (PBody Ty V))
    (hs : Polymorphic14.Safe tr s o) :
    Holder.ofCall (Polymorphic14.call tr (plainP P) o e) s =
      Holder.ofCall (Polymorphic.call tr (plainP P) (Polymorphic14.fix P.base o) e) s := by
  unfold Holder.ofCall
  rw [Polymorphic14.call_eq tr E P o e s hs]

theorem polymorphic14_behaves (E : tr.Equality) (S : tr.Sound) (Rf : tr.Reflexive) (P : PSpec Ty V X) :
    Behaves tr P.owned Polymorphic.abs (Composite.POk tr) (Holder.polymorphic14 (L := L) tr P) := by
  have B := Composite.polymorphic_behaves (L := L) S Rf P
  constructor
  · intro s x i e hs hx
    have := B.make (i.1, fixArgs P.base i.2.1 i.2.2, i.2.2) e hs hx
    simp only [Holder.polymorphic14]
    rw [call_same E P _ e s (by exact trivial)]
    simp only [Holder.polymorphic, ← fix_pctorOf] at this
    exact this
  · intro s x y b e; simp only [Holder.polymorphic14]; rw [call_same E P _ e s (by exact trivial)]; exact B.copy e
  · intro s x y b e; simp only [Holder.polymorphic14]; rw [call_same E P _ e s (by exact trivial)]; exact B.move e
  · intro s x b e; simp only [Holder.polymorphic14]; rw [call_same E P _ e s (by exact trivial), call_same E P _ e s (by exact trivial)]
    exact B.assignSelf e
  · intro s x y a b e; simp only [Holder.polymorphic14]; rw [call_same E P _ e s (by exact trivial)]; exact B.assignCopy e
  · intro s x y a b e; simp only [Holder.polymorphic14]; rw [call_same E P _ e s (by exact trivial)]; exact B.assignMove e
  · intro s x b e; simp only [Holder.polymorphic14]; rw [call_same E P _ e s (by exact trivial)]; exact B.destroy e
  · intro s x a v f e; simp only [Holder.polymorphic14]; rw [call_same E P _ e s (by exact trivial)]; exact B.modify f e

theorem polymorphic14_located (E : tr.Equality) (S : tr.Sound) (Rf : tr.Reflexive) (P : PSpec Ty V X) :
    Located tr Polymorphic.abs addr (Composite.POk tr) (Holder.polymorphic14 (L := L) tr P) := by
  have B := polymorphic_located (L := L) S Rf P
  constructor
  · intro s l b; exact B.has
  · intro s x i e hs hx
    have := B.make (i.1, fixArgs P.base i.2.1 i.2.2, i.2.2) e hs hx
    simp only [Holder.polymorphic14]
    rw [call_same E P _ e s (by exact trivial)]
    simp only [Holder.polymorphic, ← fix_pctorOf] at this
    exact this
  · intro s x y b e; simp only [Holder.polymorphic14]; rw [call_same E P _ e s (by exact trivial)]; exact B.copy e
  · intro s x y b e; simp only [Holder.polymorphic14]; rw [call_same E P _ e s (by exact trivial)]; exact B.move e
  · intro s x y a b e; simp only [Holder.polymorphic14]; rw [call_same E P _ e s (by exact trivial)]; exact B.assignCopy e
  · intro s x y a b e; simp only [Holder.polymorphic14]; rw [call_same E P _ e s (by exact trivial)]; exact B.assignMove e
  · intro s x b e; simp only [Holder.polymorphic14]; rw [call_same E P _ e s (by exact trivial)]; exact B.destroy e
  · intro s x a v f e; simp only [Holder.polymorphic14]; rw [call_same E P _ e s (by exact trivial)]; exact B.modify f e

theorem indirect14_located (S : tr.Sound) (Rf : tr.Reflexive) (T : TSpec V X) :
    Located tr Indirect.abs addr (Composite.IOk tr) (Holder.indirect14 (L := L) tr T) := by
  rw [Composite.indirect14_holder]; exact indirect_located S Rf T.cxx14

theorem indirect14In_holder (α : A) (T : TSpec V X) :
    (Holder.indirect14In α tr T : Holder L _ _ _ _) = Holder.indirectIn α tr T.cxx14 := by
  have : ∀ (o : Op L A V X) (e : Env), Indirect14.call (R := R) tr (plain T) o e = Indirect.call tr (plain T.cxx14) o e :=
    fun o e => funext fun s => Indirect14.call_eq tr T o e s
  simp only [Holder.indirect14In, Holder.indirectIn, this]

/-- Storage is owned by handles. -/
theorem pok_owned {s : St L A R (PBody Ty V)} (h : Composite.POk tr s) (p : Addr) :
    (∃ c, s.heap p = some c) ↔ ∃ l, addr s l = some p := by
  have := Composite.iok_owned h.2 p
  rw [show (∃ l, addr s l = some p) ↔ ∃ l, addr (Polymorphic.view s) l = some p from .rfl, ← this]
  simp only [Polymorphic.view]
  cases s.heap p <;> simp

theorem pok_no_leak {s : St L A R (PBody Ty V)} (h : Composite.POk tr s) (hd : ∀ l, Polymorphic.abs s l = none) (p : Addr) :
    s.heap p = none ∧ Spec.allocsAt p s.trace = Spec.deallocsAt p s.trace ∧
      Spec.constructsAt p s.trace = Spec.destroysAt p s.trace := by
  have := Composite.iok_no_leak h.2 (fun l => by rw [Polymorphic.abs_view]; exact hd l) p
  refine ⟨?_, this.2⟩
  simpa [Polymorphic.view] using this.1

end
end Verif.Containers14
