import Verif.Proofs.SpecFacts

/-! The specification of `indirect` is local: a call depends on, and changes, only the objects it mentions. -/

set_option autoImplicit false
set_option linter.unusedSectionVars false
set_option linter.unusedSimpArgs false
namespace Verif.Indirect
open Verif
section
variable {L A R V X : Type} [DecidableEq L] [DecidableEq R]
variable {tr : ATraits A R} {T : TSpec V X} {D : L → Prop} {o : Op L A V X} {m : Bool} {n : Nat}
  {σ σ' : Spec.Boxes L A V} {x y z : L}

/-- The same objects in `D`. -/
def Agree (D : L → Prop) (σ σ' : Spec.Boxes L A V) : Prop := ∀ z, D z → σ z = σ' z

/-- The same outcome, as far as `D` is concerned. -/
def RAgree (D : L → Prop) : Spec.Result L A V → Spec.Result L A V → Prop
  | .ret o σ, .ret o' σ' => o = o' ∧ Agree D σ σ'
  | .threw e σ, .threw e' σ' => e = e' ∧ Agree D σ σ'
  | .terminated, .terminated => True
  | .illegal, .illegal => True
  | _, _ => False

theorem Agree.put (h : Agree D σ σ') (x : L) (b : Spec.Box A V) : Agree D (Spec.put σ x b) (Spec.put σ' x b) := by
  intro z hz; simp only [Spec.put]; split
  · rfl
  · exact h z hz

theorem Agree.drop (h : Agree D σ σ') (x : L) : Agree D (Spec.drop σ x) (Spec.drop σ' x) := by
  intro z hz; simp only [Spec.drop]; split
  · rfl
  · exact h z hz

theorem Agree.setVal (h : Agree D σ σ') (hx : D x) (b : Option V) :
    Agree D (Spec.setVal σ x b) (Spec.setVal σ' x b) := by
  intro z hz; simp only [Spec.setVal]; split
  · rw [h x hx]
  · exact h z hz

theorem RAgree.store (h : Agree D σ σ') (out : Out L A V) (x : L) (a : A) (r : Except Exn V) :
    RAgree D (Spec.store σ out x a r) (Spec.store σ' out x a r) := by
  cases r <;> simp only [Spec.store, RAgree]
  · exact ⟨trivial, h⟩
  · exact ⟨trivial, h.put _ _⟩

theorem RAgree.noexceptIf {r r' : Spec.Result L A V} (h : RAgree D r r') (b : Bool) :
    RAgree D (Spec.noexceptIf b r) (Spec.noexceptIf b r') := by
  cases r <;> cases r' <;> simp only [RAgree] at h <;> simp only [Spec.noexceptIf]
  · exact h
  · cases b <;> simp only [Bool.false_eq_true, if_true, if_false, RAgree]; exact h
  · trivial
  · trivial

theorem valueOf_agree (h : Agree D σ σ') (hx : D x) : Spec.valueOf σ x = Spec.valueOf σ' x := by
  simp [Spec.valueOf, h x hx]

theorem buildFrom_agree (h : Agree D σ σ') (u : Src L X) (hu : ∀ z ∈ Spec.srcOperands u, D z) :
    (Spec.buildFrom T m n σ u).1 = (Spec.buildFrom T m n σ' u).1 ∧
    Agree D (Spec.buildFrom T m n σ u).2 (Spec.buildFrom T m n σ' u).2 := by
  cases u with
  | arg x => exact ⟨rfl, h⟩
  | lval y =>
    have hy := hu y (by simp [Spec.srcOperands])
    simp only [Spec.buildFrom, valueOf_agree h hy]
    split <;> exact ⟨rfl, h⟩
  | rval y =>
    have hy := hu y (by simp [Spec.srcOperands])
    simp only [Spec.buildFrom, valueOf_agree h hy]
    split
    · split
      · exact ⟨rfl, h.setVal hy _⟩
      · exact ⟨rfl, h⟩
    · exact ⟨rfl, h⟩

theorem copyA_agree (h : Agree D σ σ') (hy : D y) (x : L) (a : A) :
    RAgree D (Spec.copyA T m n σ x a y) (Spec.copyA T m n σ' x a y) := by
  simp only [Spec.copyA, h y hy]
  split
  · trivial
  · split
    · exact ⟨rfl, h.put _ _⟩
    · exact .store h _ _ _ _

theorem moveA_agree (h : Agree D σ σ') (hy : D y) (x : L) (a : A) :
    RAgree D (Spec.moveA tr T m n σ x a y) (Spec.moveA tr T m n σ' x a y) := by
  simp only [Spec.moveA, h y hy]
  split
  · trivial
  · split
    · exact ⟨rfl, (h.put _ _).put _ _⟩
    · split
      · exact ⟨rfl, h.put _ _⟩
      · split
        · exact .store (h.setVal hy _) _ _ _ _
        · exact ⟨rfl, h⟩

/-- A call that mentions only objects of `D` does the same in states that agree on `D`. -/
theorem step_agree (h : Agree D σ σ') (ho : ∀ z ∈ Spec.operands o, D z) :
    RAgree D (Spec.step tr T m n σ o) (Spec.step tr T m n σ' o) := by
  cases o with
  | make x a c =>
    have : (Spec.buildCtor T m n σ c).1 = (Spec.buildCtor T m n σ' c).1 ∧
        Agree D (Spec.buildCtor T m n σ c).2 (Spec.buildCtor T m n σ' c).2 := by
      cases c with
      | «from» u => exact buildFrom_agree h u (fun z hz => ho z (by simp [Spec.operands, hz]))
      | inPlaceOne u => exact buildFrom_agree h u (fun z hz => ho z (by simp [Spec.operands, hz]))
      | _ => exact ⟨rfl, h⟩
    simp only [Spec.step, this.1]
    exact .store this.2 _ _ _ _
  | copy x y =>
    have hy : D y := ho y (by simp [Spec.operands])
    simp only [Spec.step, h y hy]
    split
    · trivial
    · exact copyA_agree h hy _ _
  | copyA x a y => exact copyA_agree h (ho y (by simp [Spec.operands])) _ _
  | move x y =>
    have hy : D y := ho y (by simp [Spec.operands])
    simp only [Spec.step, h y hy]
    split
    · trivial
    · exact (moveA_agree h hy _ _).noexceptIf _
  | moveA x a y => exact (moveA_agree h (ho y (by simp [Spec.operands])) _ _).noexceptIf _
  | destroy x => exact ⟨rfl, h.drop _⟩
  | assignCopy x y =>
    have hx : D x := ho x (by simp [Spec.operands])
    have hy : D y := ho y (by simp [Spec.operands])
    simp only [Spec.step, Spec.assignCopy, h x hx, h y hy]
    repeat' split
    all_goals first
      | exact ⟨rfl, h⟩
      | exact ⟨rfl, h.put _ _⟩
      | exact .store h _ _ _ _
      | trivial
  | assignMove x y =>
    have hx : D x := ho x (by simp [Spec.operands])
    have hy : D y := ho y (by simp [Spec.operands])
    simp only [Spec.step, Spec.assignMove, h x hx, h y hy]
    repeat' split
    all_goals first
      | exact ⟨rfl, h⟩
      | exact ⟨rfl, h.put _ _⟩
      | exact ⟨rfl, (h.put _ _).put _ _⟩
      | exact (RAgree.store (h.setVal hy _) _ _ _ _).noexceptIf _
      | exact RAgree.noexceptIf (r := .threw _ _) (r' := .threw _ _) ⟨rfl, h⟩ _
      | trivial
  | assignFrom x u =>
    have hx : D x := ho x (by simp [Spec.operands])
    have hu : ∀ z ∈ Spec.srcOperands u, D z := fun z hz => ho z (by simp [Spec.operands, hz])
    simp only [Spec.step, Spec.assignFrom, h x hx]
    split
    · trivial
    · split
      · rw [(buildFrom_agree h u hu).1]
        exact .store (buildFrom_agree h u hu).2 _ _ _ _
      · cases u with
        | arg v => simp only [Spec.assignValue]; split <;> exact ⟨rfl, h.setVal hx _⟩
        | lval y =>
          have hy : D y := hu y (by simp [Spec.srcOperands])
          simp only [Spec.assignValue, valueOf_agree h hy]
          split
          · trivial
          · split <;> exact ⟨rfl, h.setVal hx _⟩
        | rval y =>
          have hy : D y := hu y (by simp [Spec.srcOperands])
          simp only [Spec.assignValue, valueOf_agree h hy]
          split
          · trivial
          · split <;> exact ⟨rfl, (h.setVal hy _).setVal hx _⟩
  | swap x y =>
    have hx : D x := ho x (by simp [Spec.operands])
    have hy : D y := ho y (by simp [Spec.operands])
    simp only [Spec.step, Spec.swap, h x hx, h y hy]
    repeat' split
    all_goals first
      | exact ⟨rfl, (h.put _ _).put _ _⟩
      | trivial
  | friendSwap x y =>
    have hx : D x := ho x (by simp [Spec.operands])
    have hy : D y := ho y (by simp [Spec.operands])
    simp only [Spec.step, Spec.swap, h x hx, h y hy]
    repeat' split
    all_goals first
      | exact ⟨rfl, (h.put _ _).put _ _⟩
      | trivial
  | modify x f =>
    have hx : D x := ho x (by simp [Spec.operands])
    simp only [Spec.step, valueOf_agree h hx]
    split
    · exact ⟨rfl, h.setVal hx _⟩
    · trivial
  | deref x =>
    have hx : D x := ho x (by simp [Spec.operands])
    simp only [Spec.step, valueOf_agree h hx]
    split
    · exact ⟨rfl, h⟩
    · trivial
  | arrow x =>
    have hx : D x := ho x (by simp [Spec.operands])
    simp only [Spec.step, valueOf_agree h hx]
    split
    · exact ⟨rfl, h⟩
    · trivial
  | valueless x =>
    have hx : D x := ho x (by simp [Spec.operands])
    simp only [Spec.step, h x hx]
    split
    · exact ⟨rfl, h⟩
    · trivial
  | getAllocator x =>
    have hx : D x := ho x (by simp [Spec.operands])
    simp only [Spec.step, h x hx]
    split
    · exact ⟨rfl, h⟩
    · trivial

/-- Whether a call is legal depends only on the objects it mentions. -/
theorem legal_agree (h : Agree D σ σ') (ho : ∀ z ∈ Spec.operands o, D z) :
    Spec.Legal tr σ o ↔ Spec.Legal tr σ' o := by
  have hs : ∀ u : Src L X, (∀ z ∈ Spec.srcOperands u, D z) → (Spec.LegalSrc σ u ↔ Spec.LegalSrc σ' u) := by
    intro u hu
    cases u <;> simp_all [Spec.LegalSrc, Spec.srcOperands, Spec.Engaged, valueOf_agree h]
  cases o with
  | make x a c =>
    have hx : D x := ho x (by cases c <;> simp [Spec.operands])
    have hc : Spec.LegalCtor σ c ↔ Spec.LegalCtor σ' c := by
      cases c with
      | «from» u => exact hs u (fun z hz => ho z (by simp [Spec.operands, hz]))
      | inPlaceOne u => exact hs u (fun z hz => ho z (by simp [Spec.operands, hz]))
      | _ => exact .rfl
    simp only [Spec.Legal, Spec.Dead, h x hx, hc]
  | assignFrom x u =>
    have hx : D x := ho x (by simp [Spec.operands])
    simp only [Spec.Legal, Spec.Live, h x hx, hs u (fun z hz => ho z (by simp [Spec.operands, hz]))]
  | _ =>
    simp only [Spec.operands, List.mem_cons, List.not_mem_nil, or_false, forall_eq_or_imp, forall_eq] at ho
    first
      | simp only [Spec.Legal, Spec.Dead, Spec.Live, Spec.LegalSwap, h _ ho.1, h _ ho.2]
      | simp only [Spec.Legal, Spec.Dead, Spec.Live, Spec.Engaged, Spec.LegalSwap, h _ ho, valueOf_agree h ho]

end
end Verif.Indirect
