import Verif.Proofs.Synced
import Verif.Proofs.Query

/-!
What `Proofs/Synced.lean` has to know about `indirect` and `polymorphic`.
-/

set_option autoImplicit false
set_option linter.unusedSectionVars false
set_option linter.unusedSimpArgs false

namespace Verif.Conc
open Verif

/-- The invariant of memory that is put together. -/
theorem inv_join {L A R B : Type} {res : A → R} {good : Addr → B → Prop} {a b s : St L A R B}
    (Ia : Inv res good a.hs a.heap) (Ib : Inv res good b.hs b.heap) (J : Join a b s) : Inv res good s.hs s.heap := by
  constructor
  · intro l h p hl hp
    rcases (J.hs l h).1 hl with hl | hl
    · obtain ⟨x, hx, hg⟩ := Ia.own l h p hl hp
      exact ⟨x, (J.heap _ _).2 (.inl hx), hg⟩
    · obtain ⟨x, hx, hg⟩ := Ib.own l h p hl hp
      exact ⟨x, (J.heap _ _).2 (.inr hx), hg⟩
  · have mixed : ∀ l l' h h' p, a.hs l = some h → b.hs l' = some h' → h.p = some p → h'.p = some p → l = l' := by
      intro l l' h h' p hl hl' hp hp'
      obtain ⟨x, hx, -⟩ := Ia.own l h p hl hp
      obtain ⟨x', hx', -⟩ := Ib.own l' h' p hl' hp'
      obtain ⟨z, g, hz, hz', hg⟩ := J.meet p _ _ hx hx'
      exact (Ia.uniq l z h g p hl hz hp hg).trans (Ib.uniq l' z h' g p hl' hz' hp' hg).symm
    intro l l' h h' p hl hl' hp hp'
    rcases (J.hs l h).1 hl with hl | hl <;> rcases (J.hs l' h').1 hl' with hl' | hl'
    · exact Ia.uniq l l' h h' p hl hl' hp hp'
    · exact mixed l l' h h' p hl hl' hp hp'
    · exact (mixed l' l h' h p hl' hl hp' hp).symm
    · exact Ib.uniq l l' h h' p hl hl' hp hp'
  · intro p c hc
    rcases (J.heap p c).1 hc with hc | hc
    · obtain ⟨l, h, hl, hp⟩ := Ia.owned p c hc
      exact ⟨l, h, (J.hs l h).2 (.inl hl), hp⟩
    · obtain ⟨l, h, hl, hp⟩ := Ib.owned p c hc
      exact ⟨l, h, (J.hs l h).2 (.inr hl), hp⟩

section
variable {L A R V X : Type} [DecidableEq L] [DecidableEq R]
open Indirect

/-- See `indirect`. -/
noncomputable def lindirect (tr : ATraits A R) (T : TSpec V X) (S : tr.Sound) : LApi L A R (Obj V) V Nat (Op L A V X) where
  toVApi := indirect tr T S
  okJoin _ _ _ := inv_join
  frame _ _ _ _ _ hz := spec_frame hz

/-- See `indirect14`. -/
noncomputable def lindirect14 (tr : ATraits A R) (T : TSpec V X) (S : tr.Sound) : LApi L A R (Obj V) V Nat (Op L A V X) where
  toVApi := indirect14 tr T S
  okJoin _ _ _ := inv_join
  frame _ _ _ _ _ hz := spec_frame hz

/-- See `queried`. -/
noncomputable def lqueried (tr : ATraits A R) (T : TSpec V X) (C : TCmp V) (S : tr.Sound) :
    LApi L A R (Obj V) V (Nat → Nat) (Either (Op L A V X) (Query L V)) where
  toVApi := queried tr T C S
  okJoin _ _ _ := inv_join
  frame m f σ o z hz := by
    cases o with
    | call o => exact spec_frame (show z ∉ Spec.changes o from hz)
    | query q =>
      have := reads_qstep C f σ q
      exact ⟨fun out σ' h => by rw [this.1.1 out σ' h], fun x σ' h => by rw [this.1.2 x σ' h]⟩

/-- See `queried14`. -/
noncomputable def lqueried14 (tr : ATraits A R) (T : TSpec V X) (C : TCmp V) (S : tr.Sound) :
    LApi L A R (Obj V) V (Nat → Nat) (Either (Op L A V X) (Query14 L V)) where
  toVApi := queried14 tr T C S
  okJoin _ _ _ := inv_join
  frame m f σ o z hz := by
    cases o with
    | call o => exact spec_frame (show z ∉ Spec.changes o from hz)
    | query q =>
      have := reads_qstep14 C f σ q
      exact ⟨fun out σ' h => by rw [this.1.1 out σ' h], fun x σ' h => by rw [this.1.2 x σ' h]⟩

end

section
variable {L A R Ty V X : Type} [DecidableEq L] [DecidableEq R] [DecidableEq Ty]
open Polymorphic

theorem join_view {a b s : St L A R (PBody Ty V)} (J : Join a b s) : Join (view a) (view b) (view s) := by
  refine ⟨J.hs, ?_, ?_⟩
  · intro p k
    simp only [view, Option.map_eq_some_iff]
    constructor
    · rintro ⟨c, hc, rfl⟩
      rcases (J.heap p c).1 hc with h | h
      · exact .inl ⟨c, h, rfl⟩
      · exact .inr ⟨c, h, rfl⟩
    · rintro (⟨c, hc, rfl⟩ | ⟨c, hc, rfl⟩)
      · exact ⟨c, (J.heap p c).2 (.inl hc), rfl⟩
      · exact ⟨c, (J.heap p c).2 (.inr hc), rfl⟩
  · intro p k k' hk hk'
    simp only [view, Option.map_eq_some_iff] at hk hk'
    obtain ⟨c, hc, -⟩ := hk
    obtain ⟨c', hc', -⟩ := hk'
    exact J.meet p c c' hc hc'

theorem good_join {a b s : St L A R (PBody Ty V)} (Ga : Polymorphic.Good a) (Gb : Polymorphic.Good b) (J : Join a b s) :
    Polymorphic.Good s := by
  intro p r c v hp
  rcases (J.heap _ _).1 hp with h | h
  · exact Ga p r c v h
  · exact Gb p r c v h

theorem pspec_frame {tr : ATraits A R} {P : PSpec Ty V X} {m : Bool} {n : Nat} {σ : Spec.Boxes L A (Ty × V)}
    {o : POp L A Ty V X} {z : L} (hz : z ∉ Spec.pchanges o) : Indirect.FrameAt z σ (Spec.pstep tr P m n σ o) := by
  rw [← step_toOp]
  exact Indirect.spec_frame (by rw [changes_toOp]; exact hz)

/-- See `polymorphic`. -/
noncomputable def lpolymorphic (tr : ATraits A R) (P : PSpec Ty V X) (S : tr.Sound) :
    LApi L A R (PBody Ty V) (Ty × V) Nat (POp L A Ty V X) where
  toVApi := polymorphic tr P S
  okJoin _ _ _ Ia Ib J := ⟨good_join Ia.1 Ib.1 J, inv_join Ia.2 Ib.2 (join_view J)⟩
  frame _ _ _ _ _ hz := pspec_frame hz

/-- See `polymorphic14`. -/
noncomputable def lpolymorphic14 (tr : ATraits A R) (P : PSpec Ty V X) (S : tr.Sound) (E : tr.Equality)
    (hq : tr.pocca = true → tr.alwaysEqual = true) : LApi L A R (PBody Ty V) (Ty × V) Nat (POp L A Ty V X) where
  toVApi := polymorphic14 tr P S E hq
  okJoin _ _ _ Ia Ib J := ⟨good_join Ia.1 Ib.1 J, inv_join Ia.2 Ib.2 (join_view J)⟩
  frame m n σ o z hz := by
    show Indirect.FrameAt z σ (Spec.pstep14 tr P m n σ o)
    rw [pstep14_eq]
    exact pspec_frame (by rw [Fine.Polymorphic14.pchanges_fix]; exact hz)

end
end Verif.Conc
