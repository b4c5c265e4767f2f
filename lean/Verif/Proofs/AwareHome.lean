import Verif.Proofs.Aware
import Verif.Proofs.CompositeLaws
import Verif.Proofs.Fine14

/-! Owned types that use the allocator: every owned object uses the memory of its owner. -/

set_option autoImplicit false
set_option linter.unusedSectionVars false
set_option linter.unusedSimpArgs false

namespace Verif

/-- All owned types as one. -/
def PAwareSpec.owned {A Ty V X : Type} (P : PAwareSpec A Ty V X) : AwareSpec A (Ty × V) (Ty × TArgs X) where
  make a := (P.at a).owned.make
  copy a := (P.at a).owned.copy
  move a := (P.at a).owned.move
  copyAssign d _ _ := (none, d)
  moveAssign d v _ := (none, d, v)
  assignArg d _ _ := (none, d)
  assignable := false
  copyAssignable := false

theorem PAwareSpec.at_owned {A Ty V X : Type} (P : PAwareSpec A Ty V X) (a : A) : (P.at a).owned = P.owned.at a := rfl

/-- The type as the C++14 header sees it. -/
def AwareSpec.cxx14 {A V X : Type} (T : AwareSpec A V X) : AwareSpec A V X := { T with assignable := T.copyAssignable }

namespace Spec
section
variable {L A R V X Ty : Type} [DecidableEq L] {tr : ATraits A R} {uses : V → R} {σ : Boxes L A V}

/-- In whatever state the call ends, `P` holds. -/
def Result.All (P : Boxes L A V → Prop) : Result L A V → Prop
  | .ret _ σ => P σ
  | .threw _ σ => P σ
  | _ => True

theorem Stays.cxx14 {T : AwareSpec A V X} (h : Stays tr T uses) : Stays tr T.cxx14 uses :=
  ⟨h.1, h.2, h.3, h.4, h.5, h.6, h.7, h.8⟩

theorem map_ok {α β : Type} {f : α → β} {r : Except Exn α} {b : β} (h : r.map f = .ok b) : ∃ a, r = .ok a ∧ b = f a := by
  cases r with
  | error e => cases h
  | ok a => cases h; exact ⟨a, rfl, rfl⟩

theorem PStays.owned {P : PAwareSpec A Ty V X} {uses : Ty → V → R} (h : PStays tr P uses) :
    Stays tr P.owned (fun v => uses v.1 v.2) where
  make a xs n v hv := by
    simp only [PAwareSpec.owned, PSpec.owned] at hv
    split at hv
    · obtain ⟨w, hw, rfl⟩ := map_ok hv; exact h.make _ _ _ _ _ hw
    · obtain ⟨w, hw, rfl⟩ := map_ok hv; exact h.make _ _ _ _ _ hw
  copy a v n w hw := by obtain ⟨u, hu, rfl⟩ := map_ok hw; exact h.copy _ _ _ _ _ hu
  move a v n w hw := by obtain ⟨u, hu, rfl⟩ := map_ok hw; exact h.move _ _ _ _ _ hu
  movedFrom a v n := h.movedFrom _ _ _ _
  copyAssign _ _ _ := rfl
  moveAssign _ _ _ := rfl
  moveAssigned _ _ _ := rfl
  assignArg _ _ _ := rfl

theorem AtHome.put (h : AtHome tr uses σ) (x : L) {a : A} {v : Option V} (hv : ∀ w, v = some w → uses w = tr.res a) :
    AtHome tr uses (put σ x ⟨a, v⟩) := by
  intro z b w hz
  simp only [Spec.put] at hz
  split at hz
  · cases hz; exact hv w rfl
  · exact h z b w hz

theorem AtHome.setVal (h : AtHome tr uses σ) (x : L) {v w : V} (hx : valueOf σ x = some v) (hw : uses w = uses v) :
    AtHome tr uses (setVal σ x (some w)) := by
  intro z b u hz
  simp only [Spec.setVal] at hz
  split at hz
  · rename_i e
    cases hb : σ x with
    | none => simp [hb] at hz
    | some c =>
      simp [hb] at hz
      obtain ⟨rfl, rfl⟩ := hz
      simp [valueOf, hb] at hx
      rw [hw]
      obtain ⟨c, d⟩ := c
      cases hx
      exact h x c v hb
  · exact h z b u hz

theorem AtHome.drop (h : AtHome tr uses σ) (x : L) : AtHome tr uses (drop σ x) := by
  intro z b u hz
  simp only [Spec.drop] at hz
  split at hz
  · cases hz
  · exact h z b u hz

theorem AtHome.store (h : AtHome tr uses σ) (o : Out L A V) (x : L) (a : A) {r : Except Exn V}
    (hr : ∀ v, r = .ok v → uses v = tr.res a) : (store σ o x a r).All (AtHome tr uses) := by
  cases r with
  | ok v => exact h.put x (fun w hw => by cases hw; exact hr v rfl)
  | error e => exact h

theorem Result.All.noexcept {P : Boxes L A V → Prop} {r : Result L A V} (h : r.All P) (b : Bool) : (noexceptIf b r).All P := by
  cases r with
  | threw e σ => cases b <;> first | trivial | exact h
  | _ => exact h

theorem build_ok {m : Bool} {r : Except Exn V} {v : V} (h : build m r = .ok v) : r = .ok v := by
  cases m
  · cases h
  · exact h

section
variable {T : AwareSpec A V X} (hT : Stays tr T uses) (S : tr.Sound)
include hT

theorem home_buildFrom (h : AtHome tr uses σ) (a : A) (m : Bool) (n : Nat) (u : Src L X) :
    AtHome tr uses (buildFrom (T.at a) m n σ u).2 ∧ ∀ v, (buildFrom (T.at a) m n σ u).1 = .ok v → uses v = tr.res a := by
  cases u with
  | arg x => exact ⟨h, fun v hv => hT.make _ _ _ _ (build_ok hv)⟩
  | lval y =>
    simp only [buildFrom]
    cases hy : valueOf σ y with
    | none => exact ⟨h, fun v hv => by cases hv⟩
    | some w => exact ⟨h, fun v hv => hT.copy _ _ _ _ (build_ok hv)⟩
  | rval y =>
    simp only [buildFrom]
    cases hy : valueOf σ y with
    | none => exact ⟨h, fun v hv => by cases hv⟩
    | some w =>
      cases m
      · exact ⟨h, fun v hv => by cases hv⟩
      · exact ⟨h.setVal y hy (hT.movedFrom _ _ _), fun v hv => hT.move _ _ _ _ hv⟩

theorem home_buildCtor (h : AtHome tr uses σ) (a : A) (m : Bool) (n : Nat) (c : Ctor L X) :
    AtHome tr uses (buildCtor (T.at a) m n σ c).2 ∧ ∀ v, (buildCtor (T.at a) m n σ c).1 = .ok v → uses v = tr.res a := by
  cases c with
  | default => exact ⟨h, fun v hv => hT.make _ _ _ _ (build_ok hv)⟩
  | «from» u => exact home_buildFrom hT h a m n u
  | inPlace us => exact ⟨h, fun v hv => hT.make _ _ _ _ (build_ok hv)⟩
  | inPlaceOne u => exact home_buildFrom hT h a m n u
  | ilist l us => exact ⟨h, fun v hv => hT.make _ _ _ _ (build_ok hv)⟩

theorem home_copyA' (h : AtHome tr uses σ) (a : A) (m : Bool) (n : Nat) (x y : L) :
    (copyA (T.at a) m n σ x a y).All (AtHome tr uses) := by
  unfold copyA
  cases hy : σ y with
  | none => trivial
  | some b =>
    simp only
    cases hv : b.val with
    | none => exact h.put x (fun w hw => by cases hw)
    | some v => exact h.store _ _ _ (fun w hw => hT.copy _ _ _ _ (build_ok hw))

include S in
theorem home_moveA' (h : AtHome tr uses σ) (a : A) (m : Bool) (n : Nat) (x y : L) :
    (moveA tr (T.at a) m n σ x a y).All (AtHome tr uses) := by
  unfold moveA
  cases hy : σ y with
  | none => trivial
  | some b =>
    obtain ⟨b, bv⟩ := b
    simp only
    by_cases e : (tr.alwaysEqual || tr.eq a b) = true
    · rw [if_pos e]
      refine (h.put y (a := b) (v := none) (fun w hw => by cases hw)).put x ?_
      intro w hw
      subst hw
      rw [h y b w hy]
      simp only [Bool.or_eq_true] at e
      rcases e with e | e
      · exact S.always_res e _ _
      · exact (S.eq_res _ _ e).symm
    · rw [if_neg e]
      cases bv with
      | none => exact h.put x (fun w hw => by cases hw)
      | some v =>
        simp only
        cases m
        · exact h
        · exact (h.setVal y (by simp [valueOf, hy]) (hT.movedFrom _ _ _)).store _ _ _ (fun w hw => hT.move _ _ _ _ hw)

include S in
theorem home_assignCopy' (h : AtHome tr uses σ) (m : Bool) (n : Nat) (x y : L) {bx bcy : Box A V} (hx : σ x = some bx)
    (hy : σ y = some bcy) :
    (assignCopy tr (T.at (if tr.pocca then bcy.alloc else bx.alloc)) m n σ x y).All (AtHome tr uses) := by
  unfold assignCopy
  by_cases e : x = y
  · rw [if_pos e]; exact h
  · rw [if_neg e]
    obtain ⟨a, av⟩ := bx
    obtain ⟨b, bv⟩ := bcy
    simp only [hx, hy]
    cases bv with
    | none => exact h.put x (fun w hw => by cases hw)
    | some v =>
      cases av with
      | none => exact h.store _ _ _ (fun w hw => hT.copy _ _ _ _ (build_ok hw))
      | some d =>
        simp only
        by_cases e' : ((T.at (if tr.pocca then b else a)).assignable && tr.eq a b) = true
        · rw [if_pos e']
          simp only [Bool.and_eq_true] at e'
          have hr := S.eq_res _ _ e'.2
          have hd : uses (T.copyAssign d v n).2 = tr.res a := (hT.copyAssign d v n).trans (h x a d hx)
          show Result.All _ (match T.copyAssign d v n with
            | (none, d') => _
            | (some e, d') => _)
          cases hc : T.copyAssign d v n with
          | mk r d' =>
            rw [hc] at hd
            cases r with
            | none =>
              refine h.put x (fun w hw => ?_)
              cases hw
              cases tr.pocca <;> simp [hd, hr]
            | some e => exact h.put x (fun w hw => by cases hw; exact hd)
        · rw [if_neg e']
          exact h.store _ _ _ (fun w hw => hT.copy _ _ _ _ (build_ok hw))

include S in
theorem home_assignMove' (h : AtHome tr uses σ) (m : Bool) (n : Nat) (x y : L) {bx bcy : Box A V} (hx : σ x = some bx)
    (hy : σ y = some bcy) :
    (assignMove tr (T.at (if tr.pocma then bcy.alloc else bx.alloc)) m n σ x y).All (AtHome tr uses) := by
  unfold assignMove
  by_cases e : x = y
  · rw [if_pos e]; exact h
  · rw [if_neg e]
    obtain ⟨a, av⟩ := bx
    obtain ⟨b, bv⟩ := bcy
    simp only [hx, hy]
    cases bv with
    | none => exact h.put x (fun w hw => by cases hw)
    | some v =>
      simp only
      by_cases e' : tr.eq a b = true
      · rw [if_pos e']
        have hr := S.eq_res _ _ e'
        refine (h.put y (a := b) (v := none) (fun w hw => by cases hw)).put x (fun w hw => ?_)
        cases hw
        rw [h y b v hy]
        cases tr.pocma <;> simp [hr]
      · rw [if_neg e']
        cases m
        · exact Result.All.noexcept (r := .threw .badAlloc σ) (P := AtHome tr uses) h _
        · exact Result.All.noexcept ((h.setVal y (by simp [valueOf, hy]) (hT.movedFrom _ _ _)).store _ _ _
            (fun w hw => hT.move _ _ _ _ hw)) _

theorem home_assignValue (h : AtHome tr uses σ) (a : A) (n : Nat) (x : L) {d : V} (hx : valueOf σ x = some d) (u : Src L X) :
    (assignValue (T.at a) n σ x d u).All (AtHome tr uses) := by
  cases u with
  | arg z =>
    have hd := hT.assignArg d z n
    show Result.All _ (match T.assignArg d z n with
      | (none, d') => _
      | (some e, d') => _)
    cases hc : T.assignArg d z n with
    | mk r d' =>
      rw [hc] at hd
      cases r <;> exact h.setVal x hx hd
  | lval y =>
    simp only [assignValue]
    cases hy : valueOf σ y with
    | none => trivial
    | some v =>
      have hd := hT.copyAssign d v n
      show Result.All _ (match T.copyAssign d v n with
        | (none, d') => _
        | (some e, d') => _)
      cases hc : T.copyAssign d v n with
      | mk r d' =>
        rw [hc] at hd
        cases r <;> exact h.setVal x hx hd
  | rval y =>
    simp only [assignValue]
    cases hy : valueOf σ y with
    | none => trivial
    | some v =>
      have hd := hT.moveAssign d v n
      have hv := hT.moveAssigned d v n
      show Result.All _ (match T.moveAssign d v n with
        | (none, d', v') => _
        | (some e, d', v') => _)
      cases hc : T.moveAssign d v n with
      | mk r dv =>
        obtain ⟨d', v'⟩ := dv
        rw [hc] at hd hv
        have h1 := h.setVal y hy hv
        have h2 : ∃ d₁, valueOf (Spec.setVal σ y (some v')) x = some d₁ ∧ uses d₁ = uses d := by
          by_cases e : x = y
          · subst e
            refine ⟨v', ?_, ?_⟩
            · unfold valueOf at hx ⊢
              simp only [Spec.setVal, if_true]
              cases hb : σ x with
              | none => simp [hb] at hx
              | some b => simp
            · rw [hv]; rw [hx] at hy; cases hy; rfl
          · refine ⟨d, ?_, rfl⟩
            unfold valueOf at hx ⊢
            simp only [Spec.setVal, if_neg e]
            exact hx
        obtain ⟨d₁, h3, h4⟩ := h2
        cases r <;> exact h1.setVal x h3 (hd.trans h4.symm)

omit hT in
include S in
theorem home_swap (h : AtHome tr uses σ) (x y : L) (hl : LegalSwap tr σ x y) : (swap tr σ x y).All (AtHome tr uses) := by
  obtain ⟨⟨a, av⟩, ⟨b, bv⟩, hx, hy, hl⟩ := hl
  simp only [swap, hx, hy]
  by_cases e : tr.pocs = true
  · rw [if_pos e]
    exact (h.put x (fun w hw => by cases hw; exact h y b w hy)).put y (fun w hw => by cases hw; exact h x a w hx)
  · rw [if_neg e]
    have hr := S.eq_res _ _ (hl.resolve_left e)
    simp only at hr
    exact (h.put x (fun w hw => by cases hw; rw [hr]; exact h y b w hy)).put y
      (fun w hw => by cases hw; rw [← hr]; exact h x a w hx)

include S in
/-- A call leaves every owned object with the memory of its owner. -/
theorem home_step (h : AtHome tr uses σ) (m : Bool) (n : Nat) (o : Op L A V X) (hl : Legal tr σ o) (hk : KeepsHome uses o) :
    (step tr (T.at (home tr σ o)) m n σ o).All (AtHome tr uses) := by
  cases o with
  | make x a c =>
    rw [home_make]
    have := home_buildCtor hT h (a.getD tr.dflt) m n c
    exact this.1.store _ _ _ this.2
  | copy x y =>
    obtain ⟨b, hb⟩ := hl.2
    rw [home_copy hb]
    simp only [step, hb]
    exact home_copyA' hT h _ m n x y
  | copyA x a y => rw [home_copyA]; exact home_copyA' hT h _ m n x y
  | move x y =>
    obtain ⟨b, hb⟩ := hl.2
    rw [home_move hb]
    simp only [step, hb]
    exact (home_moveA' hT S h _ m n x y).noexcept _
  | moveA x a y => rw [home_moveA]; exact (home_moveA' hT S h _ m n x y).noexcept _
  | destroy x => exact h.drop x
  | assignCopy x y =>
    obtain ⟨b, hb⟩ := hl.1
    obtain ⟨c, hc⟩ := hl.2
    rw [home_assignCopy hb hc]
    exact home_assignCopy' hT S h m n x y hb hc
  | assignMove x y =>
    obtain ⟨b, hb⟩ := hl.1
    obtain ⟨c, hc⟩ := hl.2
    rw [home_assignMove hb hc]
    exact home_assignMove' hT S h m n x y hb hc
  | assignFrom x u =>
    obtain ⟨b, hb⟩ := hl.1
    rw [home_assignFrom hb]
    simp only [step, assignFrom, hb]
    cases hv : b.val with
    | none =>
      have := home_buildFrom hT h b.alloc m n u
      exact this.1.store _ _ _ this.2
    | some d => exact home_assignValue hT h _ n x (by simp [valueOf, hb, hv]) u
  | deref x =>
    simp only [step]
    cases valueOf σ x with
    | none => trivial
    | some v => exact h
  | arrow x =>
    simp only [step]
    cases valueOf σ x with
    | none => trivial
    | some v => exact h
  | modify x f =>
    simp only [step]
    cases hv : valueOf σ x with
    | none => trivial
    | some v => exact h.setVal x hv (hk v)
  | valueless x =>
    simp only [step]
    cases σ x with
    | none => trivial
    | some v => exact h
  | getAllocator x =>
    simp only [step]
    cases σ x with
    | none => trivial
    | some v => exact h
  | swap x y => exact home_swap S h x y hl
  | friendSwap x y => exact home_swap S h x y hl

end
end
end Spec
end Verif
