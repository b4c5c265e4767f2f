import Verif.Proofs.CompositeLaws
import Verif.Proofs.Vector

/-! `indirect` and `polymorphic` behave as elements of vectors should. -/

set_option autoImplicit false
set_option linter.unusedSectionVars false
set_option linter.unusedSimpArgs false

namespace Verif.Vector
open Verif Spec Composite

section
variable {L A R W X S I F : Type} [DecidableEq L] {tr : ATraits A R} {T : TSpec W X}
variable {abs : S → Boxes L A W} {Ok : S → Prop} {H : Holder L S W I F}

theorem follows_plain (B : Behaves tr T abs Ok H) : Follows (Rules.plain tr T) abs Ok H where
  make i e hs hx := (B.make i e hs hx).mono (fun _ ⟨h, a, v, hv⟩ => ⟨h, ⟨a, some v⟩, by simp [Rules.plain], hv⟩) (fun _ h => h) (fun h => h)
  copy e hs hx hy := (B.copy e hs hx hy)
  move e hs hx hy := (B.move e hs hx hy).mono (fun _ ⟨h, hv⟩ => ⟨h, _, _, ⟨rfl, rfl⟩, hv⟩) (fun _ h => h.elim) (fun h => h)
  assignCopy e hs hne hx hy := (B.assignCopy e hs hne hx hy).mono (fun _ h => h)
    (fun _ ⟨h, a', h1, h2, h3⟩ => ⟨h, a', ⟨h1, h2⟩, h3⟩) (fun h => h)
  assignMove e hs hne hx hy := (B.assignMove e hs hne hx hy).mono (fun _ h => h)
    (fun _ ⟨h, h0, b', h1, h2, h3⟩ => ⟨h, b', ⟨h0, h1, h2⟩, h3⟩) (fun h => h)
  destroy e hs hx := B.destroy e hs hx
  modify f e hs hx := B.modify f e hs hx

end

section
variable {L A R V X : Type} [DecidableEq L] [DecidableEq R] {tr : ATraits A R}

theorem follows_indirectIn (S : tr.Sound) (Rf : tr.Reflexive) (T : TSpec V X) (α : A) :
    Follows (Rules.scoped α tr T) Indirect.abs (IOk tr) (Holder.indirectIn (L := L) α tr T) where
  make := by
    intro s x i e hs hd
    refine ofCall_ends (.make x (some α) (Holder.ctorOf i))
      (Q := fun σ => ∃ b, (Rules.scoped α tr T).Make b ∧ σ = put (Indirect.abs s) x b) (E := fun σ => σ = Indirect.abs s)
      S hs ⟨hd, ?_⟩ fun m n => ?_
    · cases i <;> trivial
    · have : (buildCtor T m n (Indirect.abs s) (Holder.ctorOf (L := L) i)).2 = Indirect.abs s := by
        cases i <;> rfl
      simp only [step, this]
      cases (buildCtor T m n (Indirect.abs s) (Holder.ctorOf (L := L) i)).1 with
      | ok v => exact ⟨_, ⟨rfl, rfl⟩, rfl⟩
      | error e => rfl
  copy := by
    intro s x y b e hs hd hy
    refine ofCall_ends (.copyA x α y)
      (Q := fun σ => ∃ b', (Rules.scoped α tr T).Copy b b' ∧ σ = put (Indirect.abs s) x b') (E := fun σ => σ = Indirect.abs s)
      S hs ⟨hd, b, hy⟩ fun m n => ?_
    simp only [step, hy, copyA]
    obtain ⟨a, val⟩ := b
    cases val with
    | none => exact ⟨_, ⟨rfl, rfl⟩, rfl⟩
    | some v =>
      simp only [Spec.build]
      cases m
      · rfl
      · simp only [if_true]
        cases hc : T.copy v n with
        | ok w => exact ⟨_, ⟨rfl, n, w, hc, rfl⟩, rfl⟩
        | error e => rfl
  move := by
    intro s x y b e hs hd hy
    have same : put (Indirect.abs s) y b = Indirect.abs s := by
      funext z; simp only [put]; split
      · rename_i h; rw [h, hy]
      · rfl
    have sv : ∀ w, setVal (Indirect.abs s) y (some w) = put (Indirect.abs s) y ⟨b.alloc, some w⟩ := by
      intro w; funext z; simp only [setVal, put, hy]; split <;> rfl
    refine (ofCall_ends (.moveA x α y)
      (Q := fun σ => ∃ b' r, (Rules.scoped α tr T).Move b b' r ∧ σ = put (put (Indirect.abs s) y r) x b')
      (E := fun σ => tr.alwaysEqual = false ∧ ∃ r, (Rules.scoped α tr T).MoveThrew b r ∧ σ = put (Indirect.abs s) y r)
      (D := False) S hs ⟨hd, b, hy⟩ fun m n => ?_)
    simp only [step, moveA, hy]
    by_cases hq : (tr.alwaysEqual || tr.eq α b.alloc) = true
    · rw [if_pos hq]
      have : ∀ q, noexceptIf (L := L) (A := A) (V := V) q
          (.ret .unit (put (put (Indirect.abs s) y ⟨b.alloc, none⟩) x ⟨α, b.val⟩)) =
          .ret .unit (put (put (Indirect.abs s) y ⟨b.alloc, none⟩) x ⟨α, b.val⟩) := fun q => by cases q <;> rfl
      rw [this]
      refine ⟨⟨α, b.val⟩, ⟨b.alloc, none⟩, ⟨rfl, rfl, ?_⟩, rfl⟩
      rw [if_pos hq]
      exact ⟨rfl, rfl⟩
    · rw [if_neg hq]
      have hq' : (tr.alwaysEqual || tr.eq α b.alloc) = false := by simpa using hq
      have ha : tr.alwaysEqual = false := by simp only [Bool.or_eq_false_iff] at hq'; exact hq'.1
      have nx : ∀ r : Result L A V, noexceptIf tr.alwaysEqual r = r := by
        intro r; rw [ha]; cases r <;> rfl
      rw [nx]
      obtain ⟨ba, bv⟩ := b
      cases bv with
      | none =>
        refine ⟨⟨α, none⟩, ⟨ba, none⟩, ⟨rfl, rfl, ?_⟩, by rw [same]⟩
        rw [if_neg hq]
        exact ⟨rfl, rfl⟩
      | some v =>
        simp only
        cases m with
        | false => exact ⟨ha, ⟨ba, some v⟩, ⟨hq', rfl, rfl⟩, same.symm⟩
        | true =>
          simp only [if_true]
          cases hm : T.move v n with
          | mk r v' =>
            cases r with
            | ok w =>
              refine ⟨⟨α, some w⟩, ⟨ba, some v'⟩, ⟨rfl, rfl, ?_⟩, ?_⟩
              · rw [if_neg hq]
                exact ⟨w, v', n, hm, rfl, rfl⟩
              · rw [sv]
            | error x => exact ⟨ha, ⟨ba, some v'⟩, ⟨hq', rfl, rfl⟩, sv _⟩
  assignCopy e hs hne hx hy := (follows_plain (indirect_behaves S Rf T)).assignCopy e hs hne hx hy
  assignMove e hs hne hx hy := (follows_plain (indirect_behaves S Rf T)).assignMove e hs hne hx hy
  destroy e hs hx := (indirect_behaves S Rf T).destroy e hs hx
  modify f e hs hx := (indirect_behaves S Rf T).modify f e hs hx

end

section
variable {L A R Ty V X : Type} [DecidableEq L] [DecidableEq R] [DecidableEq Ty] {tr : ATraits A R}

theorem follows_polymorphicIn (S : tr.Sound) (Rf : tr.Reflexive) (P : PSpec Ty V X) (α : A) :
    Follows (Rules.scoped α tr P.owned) Polymorphic.abs (POk tr) (Holder.polymorphicIn (L := L) α tr P) where
  make := by
    intro s x i e hs hd
    refine ofCall_view (Q := fun σ => ∃ b, (Rules.scoped α tr P.owned).Make b ∧ σ = put (Polymorphic.abs s) x b)
      (E := fun σ => σ = Polymorphic.abs s) (.make x (some α) (Holder.pctorOf i.1 i.2)) hs ⟨hd, ?_⟩ ?_
    · rcases i with ⟨ty, xs⟩
      cases ty <;> cases xs <;> trivial
    · rw [← Polymorphic.abs_view] at hd ⊢
      refine ofCall_ends (Q := fun σ => ∃ b, (Rules.scoped α tr P.owned).Make b ∧ σ = put (Indirect.abs (Polymorphic.view s)) x b)
        (E := fun σ => σ = Indirect.abs (Polymorphic.view s))
        (.make x (some α) (Polymorphic.toCtor (Holder.pctorOf i.1 i.2))) S hs.2 ⟨hd, ?_⟩ fun m n => ?_
      · rcases i with ⟨ty, xs⟩
        cases ty <;> cases xs <;> trivial
      · have : (buildCtor P.owned m n (Indirect.abs (Polymorphic.view s))
            (Polymorphic.toCtor (L := L) (Holder.pctorOf i.1 i.2))).2 = Indirect.abs (Polymorphic.view s) := by
          rcases i with ⟨ty, xs⟩
          cases ty <;> cases xs <;> rfl
        simp only [step, Polymorphic.toOp, this]
        cases (buildCtor P.owned m n (Indirect.abs (Polymorphic.view s))
            (Polymorphic.toCtor (L := L) (Holder.pctorOf i.1 i.2))).1 with
        | ok v => exact ⟨_, ⟨rfl, rfl⟩, rfl⟩
        | error e => rfl
  copy := by
    intro s x y b e hs hd hy
    have := (follows_indirectIn (L := L) S Rf P.owned α).copy (s := Polymorphic.view s) (x := x) (y := y) (b := b) e hs.2
      (by rw [Polymorphic.abs_view]; exact hd) (by rw [Polymorphic.abs_view]; exact hy)
    rw [Polymorphic.abs_view] at this
    exact ofCall_view (Q := fun σ => ∃ b', (Rules.scoped α tr P.owned).Copy b b' ∧ σ = put (Polymorphic.abs s) x b')
      (E := fun σ => σ = Polymorphic.abs s) (.copyA x α y) hs ⟨hd, b, hy⟩ this
  move := by
    intro s x y b e hs hd hy
    have := (follows_indirectIn (L := L) S Rf P.owned α).move (s := Polymorphic.view s) (x := x) (y := y) (b := b) e hs.2
      (by rw [Polymorphic.abs_view]; exact hd) (by rw [Polymorphic.abs_view]; exact hy)
    rw [Polymorphic.abs_view] at this
    exact ofCall_view
      (Q := fun σ => ∃ b' r, (Rules.scoped α tr P.owned).Move b b' r ∧ σ = put (put (Polymorphic.abs s) y r) x b')
      (E := fun σ => tr.alwaysEqual = false ∧ ∃ r, (Rules.scoped α tr P.owned).MoveThrew b r ∧ σ = put (Polymorphic.abs s) y r)
      (.moveA x α y) hs ⟨hd, b, hy⟩ this
  assignCopy e hs hne hx hy := (follows_plain (polymorphic_behaves S Rf P)).assignCopy e hs hne hx hy
  assignMove e hs hne hx hy := (follows_plain (polymorphic_behaves S Rf P)).assignMove e hs hne hx hy
  destroy e hs hx := (polymorphic_behaves S Rf P).destroy e hs hx
  modify f e hs hx := (polymorphic_behaves S Rf P).modify f e hs hx

end

section
variable {C A R W X S J F : Type} [DecidableEq C] {tr : ATraits A R} {T : TSpec W X}
variable {abs : S → Boxes (Cell C) A W} {Ok : S → Prop} {H : Holder (Cell C) S W J F}

/-- Variables made by the constructors of a type that behaves. -/
theorem makes_of (B : Behaves tr T abs Ok H) : Makes abs Ok fun (y : C) j e => H.make (.var y) j e :=
  fun j e hs hy => (B.make j e hs hy).mono (fun _ ⟨h, _, _, hv⟩ => ⟨h, _, hv⟩) (fun _ h => h) (fun h => h)

end
end Verif.Vector
