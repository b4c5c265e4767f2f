import Verif.Proofs.Client
import Verif.Proofs.ConcurrentApi
import Verif.Proofs.Fine14

/-!
Exchange by three moves when the allocators are not equal.
-/

set_option autoImplicit false
set_option linter.unusedSectionVars false
set_option linter.unusedSimpArgs false

namespace Verif.Conc
open Verif

section
variable {L A R V X O : Type} [DecidableEq L]
variable {tr : ATraits A R} {T : TSpec V X} {move assign : L → L → O} {destroy : L → O}
  {step : Bool → Nat → Spec.Boxes L A V → O → Spec.Result L A V} {legal : Spec.Boxes L A V → O → Prop}

/-- The calls of `swapWith` do what they do for `indirect`. -/
structure Moves (tr : ATraits A R) (T : TSpec V X) (move assign : L → L → O) (destroy : L → O)
    (step : Bool → Nat → Spec.Boxes L A V → O → Spec.Result L A V) (legal : Spec.Boxes L A V → O → Prop) : Prop where
  does_move : ∀ m n σ x y b, σ y = some b →
    step m n σ (move x y) = Spec.noexceptIf tr.alwaysEqual (Spec.moveA tr T m n σ x b.alloc y)
  does_assign : ∀ m n σ x y, step m n σ (assign x y) = Spec.assignMove tr T m n σ x y
  does_destroy : ∀ m n σ x, step m n σ (destroy x) = .ret .unit (Spec.drop σ x)
  legal_move : ∀ σ x y, Spec.Dead σ x → Spec.Live σ y → legal σ (move x y)
  legal_assign : ∀ σ x y, Spec.Live σ x → Spec.Live σ y → legal σ (assign x y)
  legal_destroy : ∀ σ x, Spec.Live σ x → legal σ (destroy x)

open Verif.Spec (put drop setVal)

/-- Move assignment to a valueless object from one with another allocator. -/
theorem assign_unequal {σ : Spec.Boxes L A V} {x y : L} {a : A} {o : Option V} {l : Spec.Box A V} (hxy : x ≠ y) (hx : σ x = some ⟨a, o⟩)
    (hy : σ y = some l) (hq : tr.eq a l.alloc = false) (hp : tr.pocma = false) (ha : tr.alwaysEqual = false) (m : Bool) (n : Nat) :
    (∃ v, Spec.Moved T l.val v ∧ ∃ w, (l.val = none → w = none) ∧ (∀ u, l.val = some u → w = some (T.move u n).2) ∧
      Spec.assignMove tr T m n σ x y = .ret (.self x) (put (put σ y ⟨l.alloc, w⟩) x ⟨a, v⟩)) ∨
    ((m = false ∨ ∃ u e, (T.move u n).1 = .error e) ∧ ∃ e w, (w = l.val ∨ ∃ u, l.val = some u ∧ w = some (T.move u n).2) ∧
      Spec.assignMove tr T m n σ x y = .threw e (put σ y ⟨l.alloc, w⟩)) := by
  obtain ⟨b, v⟩ := l
  simp only at hq
  cases v with
  | none =>
    refine .inl ⟨none, rfl, none, fun _ => rfl, fun _ h => (by cases h), ?_⟩
    simp only [Spec.assignMove, hxy, if_false, hx, hy, hp]
    congr 1
    funext z
    simp only [put]
    by_cases h1 : z = x
    · simp [h1]
    · by_cases h2 : z = y
      · simp [h2, hy, Ne.symm hxy]
      · simp [h1, h2]
  | some v =>
    have e1 : ∀ w, setVal σ y w = put σ y ⟨b, w⟩ := by
      intro w; funext z; simp only [setVal, put]; split
      · simp [hy]
      · rfl
    cases m with
    | false =>
      refine .inr ⟨.inl rfl, .badAlloc, some v, .inl rfl, ?_⟩
      simp only [Spec.assignMove, hxy, if_false, hx, hy, hp, hq, ha, Bool.false_eq_true, Bool.or_false, Spec.noexceptIf]
      congr 1
      funext z; simp only [put]; split
      · rename_i h; rw [h, hy]
      · rfl
    | true =>
      cases hm : (T.move v n).1 with
      | ok u =>
        refine .inl ⟨some u, ⟨n, u, hm, rfl⟩, some (T.move v n).2, fun h => (by simp at h), fun u h => by cases h; rfl, ?_⟩
        simp only [Spec.assignMove, hxy, if_false, hx, hy, hp, hq, ha, Bool.false_eq_true, Bool.or_false, Spec.noexceptIf,
          if_true, hm, Spec.store, e1]
      | error e =>
        refine .inr ⟨.inr ⟨v, e, hm⟩, e, some (T.move v n).2, .inr ⟨v, rfl, rfl⟩, ?_⟩
        simp only [Spec.assignMove, hxy, if_false, hx, hy, hp, hq, ha, Bool.false_eq_true, Bool.or_false, Spec.noexceptIf,
          if_true, hm, Spec.store, e1]

theorem exchange_values (M : Moves tr T move assign destroy step legal) (Rf : tr.Reflexive) {σ : Spec.Boxes L A V} {t x y : L}
    {k l : Spec.Box A V} (hx : σ x = some k) (hy : σ y = some l) (ht : Spec.Dead σ t) (hxy : x ≠ y)
    (h1 : tr.eq k.alloc l.alloc = false) (h2 : tr.eq l.alloc k.alloc = false) (hp : tr.pocma = false)
    (ha : tr.alwaysEqual = false) :
    Spec.Careful step legal (swapWith move assign destroy t x y) σ ∧
    ∀ luck, ∃ b σ', Spec.runOn step (swapWith move assign destroy t x y) luck σ = .done b σ' ∧
      Spec.ByMoves T x y k l σ σ' b ∧
      ((∀ i, (luck i).1 = true) → (∀ v n, ∃ u, (T.move v n).1 = .ok u) → b = true) := by
  have htx : t ≠ x := by rintro rfl; rw [ht] at hx; cases hx
  have hty : t ≠ y := by rintro rfl; rw [ht] at hy; cases hy
  have s1 : ∀ m n, step m n σ (move t x) = .ret .unit (put (put σ x ⟨k.alloc, none⟩) t k) := by
    intro m n
    rw [M.does_move _ _ _ _ _ _ hx, Spec.moveA, hx]
    simp only [Rf.eq_refl, Bool.or_true, if_true]; rfl
  have ax : put (put σ x ⟨k.alloc, none⟩) t k x = some ⟨k.alloc, none⟩ := by simp [put, Ne.symm htx]
  have ay : put (put σ x ⟨k.alloc, none⟩) t k y = some l := by simp [put, Ne.symm hty, Ne.symm hxy, hy]
  have s2 := assign_unequal (T := T) hxy ax ay h1 hp ha
  -- the states after the second call
  have bt : ∀ w v, put (put (put (put σ x ⟨k.alloc, none⟩) t k) y ⟨l.alloc, w⟩) x ⟨k.alloc, v⟩ t = some k := by
    intro w v; simp [put, htx, hty]
  have by' : ∀ w v, put (put (put (put σ x ⟨k.alloc, none⟩) t k) y ⟨l.alloc, w⟩) x ⟨k.alloc, v⟩ y = some ⟨l.alloc, w⟩ := by
    intro w v; simp [put, Ne.symm hxy]
  have s3 : ∀ w v, _ := fun w v => assign_unequal (T := T) (Ne.symm hty) (by' w v) (bt w v) h2 hp ha
  have dt : ∀ w, put (put (put σ x ⟨k.alloc, none⟩) t k) y ⟨l.alloc, w⟩ t = some k := by intro w; simp [put, hty]
  -- what is left
  have f1 : ∀ w, drop (put (put (put σ x ⟨k.alloc, none⟩) t k) y ⟨l.alloc, w⟩) t =
      put (put σ x ⟨k.alloc, none⟩) y ⟨l.alloc, w⟩ := by
    intro w; funext z; simp only [drop, put]
    by_cases e1 : z = t
    · subst e1; simp [hty, htx]; exact ht.symm
    · simp [e1]
  have f2 : ∀ w v c, drop (put (put (put (put (put σ x ⟨k.alloc, none⟩) t k) y ⟨l.alloc, w⟩) x ⟨k.alloc, v⟩) t c) t =
      put (put σ x ⟨k.alloc, v⟩) y ⟨l.alloc, w⟩ := by
    intro w v c; funext z; simp only [drop, put]
    by_cases e1 : z = t
    · subst e1; simp [hty, htx]; exact ht.symm
    · by_cases e2 : z = x
      · simp [e2, Ne.symm htx, hxy]
      · simp [e1, e2]
  have f3 : ∀ w v w' v', drop (put (put (put (put (put (put σ x ⟨k.alloc, none⟩) t k) y ⟨l.alloc, w⟩) x ⟨k.alloc, v⟩) t ⟨k.alloc, w'⟩) y
      ⟨l.alloc, v'⟩) t = put (put σ x ⟨k.alloc, v⟩) y ⟨l.alloc, v'⟩ := by
    intro w v w' v'; funext z; simp only [drop, put]
    by_cases e1 : z = t
    · subst e1; simp [hty, htx]; exact ht.symm
    · by_cases e2 : z = x
      · simp [e2, Ne.symm htx, hxy]
      · by_cases e3 : z = y
        · simp [e3, Ne.symm hty, Ne.symm hxy]
        · simp [e1, e2, e3]
  constructor
  · refine ⟨M.legal_move _ _ _ ht ⟨_, hx⟩, fun m n => ?_⟩
    rw [s1]
    refine ⟨M.legal_assign _ _ _ ⟨_, ax⟩ ⟨_, ay⟩, fun m n => ?_⟩
    rw [M.does_assign]
    rcases s2 m n with ⟨v, -, w, -, -, e⟩ | ⟨-, ex, w, -, e⟩
    · rw [e]
      refine ⟨M.legal_assign _ _ _ ⟨_, by' w v⟩ ⟨_, bt w v⟩, fun m n => ?_⟩
      rw [M.does_assign]
      rcases s3 w v m n with ⟨v', -, w', -, -, e⟩ | ⟨-, ex, w', -, e⟩
      · rw [e]
        refine ⟨M.legal_destroy _ _ ⟨⟨k.alloc, w'⟩, by simp [put, hty]⟩, fun m n => ?_⟩
        rw [M.does_destroy]; trivial
      · rw [e]
        refine ⟨M.legal_destroy _ _ ⟨⟨k.alloc, w'⟩, by simp [put]⟩, fun m n => ?_⟩
        rw [M.does_destroy]; trivial
    · rw [e]
      refine ⟨M.legal_destroy _ _ ⟨_, dt w⟩, fun m n => ?_⟩
      rw [M.does_destroy]; trivial
  · intro luck
    simp only [swapWith, Spec.runOn, s1, M.does_assign]
    rcases s2 (luck 1).1 (luck 1).2 with ⟨v, hv, w, hw, hw', e⟩ | ⟨hf, ex, w, hw, e⟩
    · simp only [Nat.zero_add, e]
      rcases s3 w v (luck 2).1 (luck 2).2 with ⟨v', hv', w', -, -, e'⟩ | ⟨hf, ex, w', -, e'⟩
      · simp only [Nat.reduceAdd, e', M.does_destroy, f3]
        exact ⟨_, _, rfl, ⟨v, v', rfl, fun _ => ⟨hv, hv'⟩, fun h => (by cases h)⟩, fun _ _ => rfl⟩
      · simp only [Nat.reduceAdd, e', M.does_destroy, f2]
        refine ⟨_, _, rfl, ⟨v, w, rfl, fun h => (by cases h), fun _ => ⟨.inr hv, ?_⟩⟩, ?_⟩
        · cases hl : l.val with
          | none => exact .inl (hw hl)
          | some u => exact .inr ⟨u, _, rfl, hw' u hl⟩
        · intro hm hT
          rcases hf with h | ⟨u, e, h⟩
          · rw [hm 2] at h; cases h
          · obtain ⟨q, hq⟩ := hT u (luck 2).2; rw [hq] at h; cases h
    · simp only [Nat.zero_add, e, M.does_destroy, f1]
      refine ⟨_, _, rfl, ⟨none, w, rfl, fun h => (by cases h), fun _ => ⟨.inl rfl, ?_⟩⟩, ?_⟩
      · rcases hw with h | ⟨u, h, h'⟩
        · exact .inl h
        · exact .inr ⟨u, _, h, h'⟩
      · intro hm hT
        rcases hf with h | ⟨u, e, h⟩
        · rw [hm 1] at h; cases h
        · obtain ⟨q, hq⟩ := hT u (luck 1).2; rw [hq] at h; cases h

end

section
variable {L A R B V X O : Type} [DecidableEq L] [DecidableEq R] [Body B]
variable {tr : ATraits A R} {T : TSpec V X} {move assign : L → L → O} {destroy : L → O}

/-- In memory. -/
theorem exchange_run (api : VApi L A R B V Nat O) (M : Moves tr T move assign destroy api.step api.vlegal) (Rf : tr.Reflexive)
    {s : St L A R B} (ok : api.Ok s) {t x y : L}
    {k l : Spec.Box A V} (hx : api.abs s x = some k) (hy : api.abs s y = some l) (ht : Spec.Dead (api.abs s) t) (hxy : x ≠ y)
    (h1 : tr.eq k.alloc l.alloc = false) (h2 : tr.eq l.alloc k.alloc = false) (hp : tr.pocma = false)
    (ha : tr.alwaysEqual = false) (es : Nat → Env) :
    ∃ b s', (swapWith move assign destroy t x y : Client O (Out L A V) Bool).run api.call es s = .ok b s' ∧
      Spec.ByMoves T x y k l (api.abs s) (api.abs s') b ∧ Spec.OwnedOnce s' := by
  obtain ⟨hc, hr⟩ := exchange_values M Rf hx hy ht hxy h1 h2 hp ha
  have H := client_run api _ es s ok hc
  obtain ⟨b, σ', e, hb, -⟩ := hr (Spec.luckOf api.call api.seed (swapWith move assign destroy t x y) es s)
  rw [e] at H
  cases hrun : (swapWith move assign destroy t x y : Client O (Out L A V) Bool).run api.call es s with
  | ok a s' =>
    rw [hrun] at H
    obtain ⟨rfl, rfl⟩ := H.1
    exact ⟨_, _, rfl, hb, client_owned api _ ok hc hrun⟩
  | _ => rw [hrun] at H; exact H.1.elim

end

section
variable {L A R V X : Type} [DecidableEq L] [DecidableEq R]

theorem moves_indirect (tr : ATraits A R) (T : TSpec V X) :
    Moves (L := L) tr T Op.move Op.assignMove Op.destroy (Spec.step tr T) (Spec.Legal tr) where
  does_move m n σ x y b h := by simp only [Spec.step, h]
  does_assign _ _ _ _ _ := rfl
  does_destroy _ _ _ _ := rfl
  legal_move _ _ _ h h' := ⟨h, h'⟩
  legal_assign _ _ _ h h' := ⟨h, h'⟩
  legal_destroy _ _ h := h

end

section
variable {L A R Ty V X : Type} [DecidableEq L] [DecidableEq R] [DecidableEq Ty]

theorem moves_polymorphic (tr : ATraits A R) (P : PSpec Ty V X) :
    Moves (L := L) tr P.owned POp.move POp.assignMove POp.destroy (Spec.pstep tr P) (Spec.PLegal tr) where
  does_move m n σ x y b h := by simp only [Spec.pstep, h]
  does_assign _ _ _ _ _ := rfl
  does_destroy _ _ _ _ := rfl
  legal_move _ _ _ h h' := ⟨h, h'⟩
  legal_assign _ _ _ h h' := ⟨h, h'⟩
  legal_destroy _ _ h := h

theorem moves_polymorphic14 (tr : ATraits A R) (P : PSpec Ty V X) :
    Moves (L := L) tr P.owned POp.move POp.assignMove POp.destroy (Spec.pstep14 tr P) (Spec.PLegal tr) where
  does_move m n σ x y b h := by rw [pstep14_eq]; exact (moves_polymorphic tr P).does_move m n σ x y b h
  does_assign _ _ _ _ _ := by rw [pstep14_eq]; rfl
  does_destroy _ _ _ _ := by rw [pstep14_eq]; rfl
  legal_move _ _ _ h h' := ⟨h, h'⟩
  legal_assign _ _ _ h h' := ⟨h, h'⟩
  legal_destroy _ _ h := h

end
end Verif.Conc
