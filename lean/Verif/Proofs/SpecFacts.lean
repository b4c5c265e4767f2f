import Verif.Spec.Table
import Verif.Spec.Run

/-! Facts about the specification of `indirect` alone. -/

set_option autoImplicit false
set_option linter.unusedSectionVars false
set_option linter.unusedSimpArgs false
namespace Verif.Indirect
open Verif
section
variable {L A R V X : Type} [DecidableEq L] [DecidableEq R]
variable {tr : ATraits A R} {T : TSpec V X} {x y z : L} {a b : A} {d v : V}
  {out : Out L A V} {ex : Exn} {k l : Spec.Box A V} {o : Op L A V X} {m : Bool} {n : Nat} {σ σ' : Spec.Boxes L A V}

theorem put_ne {x z : L} {b : Spec.Box A V} (h : z ≠ x) : Spec.put σ x b z = σ z := by simp [Spec.put, h]
theorem setVal_ne {x z : L} {b : Option V} (h : z ≠ x) : Spec.setVal σ x b z = σ z := by simp [Spec.setVal, h]
theorem drop_ne {x z : L} (h : z ≠ x) : Spec.drop σ x z = σ z := by simp [Spec.drop, h]

/-- `r` leaves object `z` as it is in `σ`. -/
def FrameAt (z : L) (σ : Spec.Boxes L A V) (r : Spec.Result L A V) : Prop :=
  (∀ out σ', r = .ret out σ' → σ' z = σ z) ∧ (∀ x σ', r = .threw x σ' → σ' z = σ z)

theorem spec_frame (hz : z ∉ Spec.changes o) : FrameAt z σ (Spec.step tr T m n σ o) := by
  have hs : ∀ u : Src L X, z ∉ (Spec.movedSrc u).toList → (Spec.buildFrom T m n σ u).2 z = σ z := by
    intro u hu
    cases u <;> simp only [Spec.buildFrom] <;> (repeat' split) <;> simp_all [Spec.movedSrc, setVal_ne]
  have hst : ∀ (σ₁ : Spec.Boxes L A V) out x a r, z ≠ x → σ₁ z = σ z → FrameAt z σ (Spec.store σ₁ out x a r) := by
    intro σ₁ out x a r hx h1
    cases r <;> simp [FrameAt, Spec.store, ← h1, put_ne hx]
  have hne : ∀ b r, FrameAt z σ r → FrameAt z σ (Spec.noexceptIf b r) := by
    intro b r h
    cases r <;> cases b <;> simp_all [FrameAt, Spec.noexceptIf]
  cases o with
  | make x a c =>
    have hx : z ≠ x := by simp_all [Spec.changes, Spec.rebinds]
    refine hst _ _ _ _ _ hx ?_
    cases c <;> simp_all [Spec.changes, Spec.rebinds, Spec.movedFrom, Spec.buildCtor]
  | assignFrom x u =>
    simp only [Spec.changes, Spec.rebinds, Spec.movedFrom, List.mem_append, List.mem_cons, List.not_mem_nil, or_false, not_or] at hz
    have hu := hs u hz.2
    simp only [Spec.step, Spec.assignFrom]
    repeat' split
    · simp [FrameAt]
    · exact hst _ _ _ _ _ hz.1 hu
    · cases u <;> simp [Spec.movedSrc] at hz <;>
        simp only [Spec.assignValue] <;> (repeat' split) <;> simp [FrameAt, setVal_ne, hz]
  | _ =>
    simp [Spec.changes, Spec.rebinds, Spec.movedFrom] at hz
    try simp only [or_false, not_or] at hz
    simp only [Spec.step, Spec.copyA, Spec.moveA, Spec.assignCopy, Spec.assignMove, Spec.swap]
    repeat' split
    all_goals first
      | exact hst _ _ _ _ _ hz rfl
      | exact hst _ _ _ _ _ hz.1 rfl
      | exact hne _ _ (hst _ _ _ _ _ hz.1.1 (setVal_ne hz.1.2))
      | exact hne _ _ (hst _ _ _ _ _ hz.1 (setVal_ne hz.2))
      | simp [FrameAt, put_ne, setVal_ne, drop_ne, hz, Spec.noexceptIf]
    all_goals (try refine hne _ _ ?_)
    all_goals (repeat' split)
    all_goals first
      | exact hst _ _ _ _ _ hz rfl
      | exact hst _ _ _ _ _ hz.1 rfl
      | exact hst _ _ _ _ _ hz.1.1 rfl
      | exact hst _ _ _ _ _ hz.1 (setVal_ne hz.2)
      | exact hst _ _ _ _ _ hz.1.1 (setVal_ne hz.1.2)
      | simp [FrameAt, put_ne, setVal_ne, drop_ne, hz, Spec.noexceptIf]

theorem changes_operands (hz : z ∉ Spec.operands o) : z ∉ Spec.changes o := by
  cases o with
  | make x a c =>
    cases c <;> try (simp_all [Spec.changes, Spec.operands, Spec.rebinds, Spec.movedFrom]; done)
    all_goals
      rename_i u
      cases u <;> simp_all [Spec.changes, Spec.operands, Spec.rebinds, Spec.movedFrom, Spec.movedSrc, Spec.srcOperands]
  | assignFrom x u =>
    cases u <;> simp_all [Spec.changes, Spec.operands, Spec.rebinds, Spec.movedFrom, Spec.movedSrc, Spec.srcOperands]
  | _ => simp_all [Spec.changes, Spec.operands, Spec.rebinds, Spec.movedFrom]

theorem rebinds_changes (hz : z ∉ Spec.changes o) : z ∉ Spec.rebinds o := by
  simp only [Spec.changes, List.mem_append, not_or] at hz; exact hz.1.1

theorem noexceptIf_terminated {b : Bool} {r : Spec.Result L A V} :
    Spec.noexceptIf b r = .terminated ↔ r = .terminated ∨ (b = true ∧ ∃ e σ, r = .threw e σ) := by
  cases r <;> cases b <;> simp [Spec.noexceptIf]

theorem store_not_terminated {out : Out L A V} {r : Except Exn V} : Spec.store σ out x a r ≠ .terminated := by
  cases r <;> simp [Spec.store]

theorem store_threw {out : Out L A V} {r : Except Exn V} :
    Spec.store σ out x a r = .threw ex σ' ↔ r = .error ex ∧ σ = σ' := by
  cases r <;> simp [Spec.store]

theorem store_ret {out out' : Out L A V} {r : Except Exn V} :
    Spec.store σ out x a r = .ret out' σ' ↔ ∃ v, r = .ok v ∧ out = out' ∧ Spec.put σ x ⟨a, some v⟩ = σ' := by
  cases r <;> simp [Spec.store]

theorem spec_terminated : Spec.step tr T m n σ o = .terminated ↔
    ∃ x y k b v, o = .assignMove x y ∧ x ≠ y ∧ σ x = some k ∧ σ y = some ⟨b, some v⟩ ∧
      tr.eq k.alloc b = false ∧ (tr.pocma = true ∨ tr.alwaysEqual = true) ∧
      (m = false ∨ ∃ ex, (T.move v n).1 = .error ex) := by
  have hm : ∀ x a y, Spec.noexceptIf tr.alwaysEqual (Spec.moveA tr T m n σ x a y) ≠ .terminated := by
    intro x a y
    rw [ne_eq, noexceptIf_terminated]
    simp only [Spec.moveA]
    repeat' split
    all_goals simp_all [store_not_terminated]
  cases o with
  | make x a c => simp [Spec.step, store_not_terminated]
  | move x y => simp only [Spec.step]; split <;> simp [hm]
  | moveA x a y => simp [Spec.step, hm]
  | assignFrom x u =>
    simp only [Spec.step, Spec.assignFrom]
    repeat' split
    · simp
    · simp [store_not_terminated]
    · cases u <;> simp only [Spec.assignValue] <;> (repeat' split) <;> simp
  | assignMove x y =>
    simp only [Spec.step, Spec.assignMove, Op.assignMove.injEq, and_assoc, exists_and_left, exists_eq_left']
    by_cases hxy : x = y
    · simp [hxy]
    cases hx : σ x with
    | none => simp [hxy]
    | some k =>
      cases hy : σ y with
      | none => simp [hxy]
      | some b =>
        obtain ⟨b, w⟩ := b
        cases w with
        | none => simp [hxy]
        | some v =>
          cases he : tr.eq k.alloc b
          · cases m <;>
              simp [hxy, he, noexceptIf_terminated, store_not_terminated, store_threw, and_assoc]
          · simp [hxy, he]
  | _ =>
    simp only [Spec.step, Spec.copyA, Spec.assignCopy, Spec.swap]
    repeat' split
    all_goals simp_all [store_not_terminated]

/-- Object `z` did not change its state: dead, valueless or engaged, and not its allocator. -/
def SameShape (σ σ' : Spec.Boxes L A V) (z : L) : Prop :=
  (Spec.valueOf σ' z = none ↔ Spec.valueOf σ z = none) ∧ ((σ' z).isSome = (σ z).isSome) ∧
    (σ' z).map (·.alloc) = (σ z).map (·.alloc)

theorem SameShape.refl (σ : Spec.Boxes L A V) (z : L) : SameShape σ σ z := ⟨Iff.rfl, rfl, rfl⟩

theorem SameShape.setVal {y : L} {v w : V} (h : Spec.valueOf σ y = some v) (z : L) :
    SameShape σ (Spec.setVal σ y (some w)) z := by
  by_cases hz : z = y
  · subst hz
    cases hs : σ z with
    | none => simp [Spec.valueOf, hs] at h
    | some b => simp [SameShape, Spec.setVal, Spec.valueOf, hs] at h ⊢; simp [h]
  · simp [SameShape, Spec.valueOf, setVal_ne hz]

theorem SameShape.trans {σ σ' σ'' : Spec.Boxes L A V} {z : L} (h : SameShape σ σ' z) (h' : SameShape σ' σ'' z) :
    SameShape σ σ'' z :=
  ⟨h'.1.trans h.1, h'.2.1.trans h.2.1, h'.2.2.trans h.2.2⟩

theorem valueOf_setVal {y z : L} {v w : V} (h : Spec.valueOf σ z = some v) :
    Spec.valueOf (Spec.setVal σ y (some w)) z = some (if z = y then w else v) := by
  by_cases hz : z = y
  · subst hz
    cases hs : σ z with
    | none => simp [Spec.valueOf, hs] at h
    | some b => simp [Spec.setVal, Spec.valueOf, hs]
  · simpa [Spec.valueOf, setVal_ne hz, hz] using h

theorem spec_threw (z : L) (h : Spec.step tr T m n σ o = .threw ex σ') : SameShape σ σ' z := by
  have hb : ∀ u : Src L X, SameShape σ (Spec.buildFrom T m n σ u).2 z := by
    intro u
    cases u <;> simp only [Spec.buildFrom] <;> (repeat' split) <;>
      first | exact .refl _ _ | (rename_i h _; exact .setVal h z)
  have hst : ∀ (σ₁ : Spec.Boxes L A V) out x a r, SameShape σ σ₁ z → Spec.store σ₁ out x a r = .threw ex σ' →
      SameShape σ σ' z := by
    intro σ₁ out x a r h1 h2
    rw [store_threw] at h2; rw [← h2.2]; exact h1
  have hne : ∀ b (r : Spec.Result L A V), Spec.noexceptIf b r = .threw ex σ' → r = .threw ex σ' := by
    intro b r
    cases r <;> cases b <;> simp [Spec.noexceptIf]
  have hv : ∀ {y : L} {b : Spec.Box A V} {v : V}, σ y = some b → b.val = some v → Spec.valueOf σ y = some v := by
    intro y b v h1 h2; simp [Spec.valueOf, h1, h2]
  have hm : ∀ x a y, Spec.noexceptIf tr.alwaysEqual (Spec.moveA tr T m n σ x a y) = .threw ex σ' →
      SameShape σ σ' z := by
    intro x a y h
    have h := hne _ _ h
    simp only [Spec.moveA] at h
    repeat' split at h
    · cases h
    · cases h
    · cases h
    · exact hst _ _ _ _ _ (.setVal (hv (by assumption) (by assumption)) z) h
    · cases h; exact .refl _ _
  cases o with
  | make x a c =>
    refine hst _ _ _ _ _ ?_ h
    cases c <;> simp only [Spec.buildCtor] <;> first | exact .refl _ _ | exact hb _
  | move x y =>
    simp only [Spec.step] at h
    split at h
    · cases h
    · exact hm _ _ _ h
  | moveA x a y => exact hm _ _ _ h
  | assignFrom x u =>
    simp only [Spec.step, Spec.assignFrom] at h
    repeat' split at h
    · cases h
    · exact hst _ _ _ _ _ (hb u) h
    · rename_i h1 _ _ h2
      have hx := hv h1 h2
      cases u <;> simp only [Spec.assignValue] at h <;> (repeat' split at h) <;> cases h
      · exact .setVal hx z
      · exact .setVal hx z
      · exact (SameShape.setVal (by assumption) z).trans (.setVal (valueOf_setVal hx) z)
  | assignCopy x y =>
    simp only [Spec.step, Spec.assignCopy] at h
    split at h
    · cases h
    split at h
    · rename_i bx bcy hx hy
      split at h
      · cases h
      · rename_i d v hd hv'
        split at h
        · split at h
          · cases h
          · simp only [Spec.Result.threw.injEq] at h
            rw [← h.2]
            by_cases hz : z = x
            · subst hz; simp [SameShape, Spec.valueOf, Spec.put, hx, hd]
            · simp [SameShape, Spec.valueOf, put_ne hz]
        · exact hst _ _ _ _ _ (.refl _ _) h
      · exact hst _ _ _ _ _ (.refl _ _) h
    · cases h
  | assignMove x y =>
    simp only [Spec.step, Spec.assignMove] at h
    split at h
    · cases h
    split at h
    · rename_i bx bcy hx hy
      split at h
      · cases h
      · rename_i v hv'
        split at h
        · cases h
        · split at h
          · exact hst _ _ _ _ _ (.setVal (hv hy hv') z) (hne _ _ h)
          · have h := hne _ _ h
            cases h; exact .refl _ _
    · cases h
  | _ =>
    simp only [Spec.step, Spec.copyA, Spec.swap] at h
    repeat' split at h
    all_goals first | (cases h; done) | exact hst _ _ _ _ _ (.refl _ _) h


theorem spec_ret_valueless (hl : Spec.Legal tr σ o) (h : Spec.step tr T m n σ o = .ret out σ') (hz : Spec.valueOf σ z = some v)
    (hz' : σ' z = some ⟨a, none⟩) :
    (∃ x, o = .move x z) ∨ (∃ x a, o = .moveA x a z) ∨ (∃ x, o = .assignMove x z) ∨
    (∃ y, (o = .assignCopy z y ∨ o = .assignMove z y ∨ o = .swap z y ∨ o = .swap y z ∨ o = .friendSwap z y ∨
      o = .friendSwap y z) ∧ Spec.valueOf σ y = none) := by
  have hsome : ∀ {y : L} {w : V}, Spec.valueOf (Spec.setVal σ y (some w)) z ≠ none := by
    intro y w; rw [valueOf_setVal hz]; simp
  have hz'' : Spec.valueOf σ' z = none := by simp [Spec.valueOf, hz']
  have hb : ∀ u : Src L X, Spec.valueOf (Spec.buildFrom T m n σ u).2 z ≠ none := by
    intro u
    cases u <;> simp only [Spec.buildFrom] <;> (repeat' split) <;> first | exact hsome | simp [hz]
  have hst : ∀ (σ₁ : Spec.Boxes L A V) out' x a r, Spec.valueOf σ₁ z ≠ none → Spec.store σ₁ out' x a r = .ret out σ' →
      False := by
    intro σ₁ out' x a r h1 h2
    obtain ⟨w, _, _, h3⟩ := store_ret.1 h2
    rw [← h3] at hz''
    by_cases hx : z = x
    · subst hx; simp [Spec.valueOf, Spec.put] at hz''
    · exact h1 (by simpa [Spec.valueOf, put_ne hx] using hz'')
  have hne : ∀ b (r : Spec.Result L A V), Spec.noexceptIf b r = .ret out σ' → r = .ret out σ' := by
    intro b r
    cases r <;> cases b <;> simp [Spec.noexceptIf]
  have h0 : Spec.valueOf σ z ≠ none := by simp [hz]
  have hdead : ∀ {x : L}, Spec.Dead σ x → z ≠ x := by
    rintro x hx rfl; simp [Spec.valueOf, show σ z = none from hx] at hz
  have hput : ∀ {x : L} {b : Spec.Box A V}, z ≠ x → Spec.valueOf (Spec.put σ x b) z ≠ none := by
    intro x b hx; simpa [Spec.valueOf, put_ne hx] using h0
  have hself : σ = σ' → False := by rintro rfl; exact h0 hz''
  have hsetv : ∀ {y : L} {w : V}, Spec.setVal σ y (some w) = σ' → False := by rintro y w rfl; exact hsome hz''
  have hsw : ∀ x y, Spec.swap tr σ x y = .ret out σ' →
      (z = x ∧ Spec.valueOf σ y = none) ∨ (z = y ∧ Spec.valueOf σ x = none) := by
    intro x y h
    simp only [Spec.swap] at h
    split at h
    · rename_i bx bcy hx hy
      have hv : σ' = (if tr.pocs then Spec.put (Spec.put σ x bcy) y bx
          else Spec.put (Spec.put σ x ⟨bx.alloc, bcy.val⟩) y ⟨bcy.alloc, bx.val⟩) := by
        split at h <;> simp only [Spec.Result.ret.injEq] at h <;> simp [*]
      rw [hv] at hz''
      by_cases h1 : z = y
      · refine .inr ⟨h1, ?_⟩
        subst h1
        simp only [Spec.valueOf] at hz'' ⊢
        split at hz'' <;> simp [Spec.put, hx] at hz'' ⊢ <;> exact hz''
      · by_cases h2 : z = x
        · refine .inl ⟨h2, ?_⟩
          subst h2
          clear hsetv hself hput hdead hst hb hsome hl
          simp only [Spec.valueOf] at hz'' ⊢
          split at hz'' <;> simp [Spec.put, h1, hy] at hz'' ⊢ <;> exact hz''
        · exfalso
          apply h0
          simp only [Spec.valueOf] at hz'' ⊢
          split at hz'' <;> simpa only [Spec.put, h1, h2, if_false] using hz''
    · cases h
  cases o with
  | make x a c =>
    exfalso
    refine hst _ _ _ _ _ ?_ h
    cases c <;> simp only [Spec.buildCtor] <;> first | exact h0 | exact hb _
  | copy x y =>
    exfalso
    have hx := hdead hl.1
    simp only [Spec.step, Spec.copyA] at h
    repeat' split at h
    all_goals first
      | (cases h; done)
      | exact hst _ _ _ _ _ h0 h
      | (simp only [Spec.Result.ret.injEq] at h; exact hput hx (h.2 ▸ hz''))
  | copyA x a y =>
    exfalso
    have hx := hdead hl.1
    simp only [Spec.step, Spec.copyA] at h
    repeat' split at h
    all_goals first
      | (cases h; done)
      | exact hst _ _ _ _ _ h0 h
      | (simp only [Spec.Result.ret.injEq] at h; exact hput hx (h.2 ▸ hz''))
  | move x y =>
    have hx := hdead hl.1
    by_cases hy : z = y
    · subst hy; exact .inl ⟨_, rfl⟩
    exfalso
    have := (spec_frame (tr := tr) (T := T) (m := m) (n := n) (σ := σ) (o := .move x y) (z := z)
      (by simp [Spec.changes, Spec.rebinds, Spec.movedFrom, hx, hy])).1 _ _ h
    simp [Spec.valueOf, this] at hz'' hz
    simp_all
  | moveA x a y =>
    have hx := hdead hl.1
    by_cases hy : z = y
    · subst hy; exact .inr (.inl ⟨_, _, rfl⟩)
    exfalso
    have := (spec_frame (tr := tr) (T := T) (m := m) (n := n) (σ := σ) (o := .moveA x a y) (z := z)
      (by simp [Spec.changes, Spec.rebinds, Spec.movedFrom, hx, hy])).1 _ _ h
    simp [Spec.valueOf, this] at hz'' hz
    simp_all
  | destroy x =>
    exfalso
    simp only [Spec.step, Spec.Result.ret.injEq] at h
    rw [← h.2] at hz'
    simp only [Spec.drop] at hz'
    split at hz'
    · cases hz'
    · simp [Spec.valueOf, hz'] at hz
  | assignCopy x y =>
    by_cases hx : z = x
    · subst hx
      cases hv : Spec.valueOf σ y with
      | none => exact .inr (.inr (.inr ⟨y, .inl rfl, hv⟩))
      | some w =>
        exfalso
        simp only [Spec.step, Spec.assignCopy] at h
        repeat' split at h
        all_goals first
          | (cases h; done)
          | exact hst _ _ _ _ _ h0 h
          | (simp only [Spec.Result.ret.injEq] at h; exact hself h.2)
          | (simp only [Spec.Result.ret.injEq] at h; simp [← h.2, Spec.put] at hz'; done)
          | (simp_all [Spec.valueOf]; done)
    · exfalso
      simp only [Spec.step, Spec.assignCopy] at h
      repeat' split at h
      all_goals first
        | (cases h; done)
        | exact hst _ _ _ _ _ h0 h
        | (simp only [Spec.Result.ret.injEq] at h; exact hself h.2)
        | (simp only [Spec.Result.ret.injEq] at h; exact hput hx (h.2 ▸ hz''))
  | assignMove x y =>
    by_cases hy : z = y
    · subst hy; exact .inr (.inr (.inl ⟨_, rfl⟩))
    by_cases hx : z = x
    · subst hx
      cases hv : Spec.valueOf σ y with
      | none => exact .inr (.inr (.inr ⟨y, .inr (.inl rfl), hv⟩))
      | some w =>
        exfalso
        simp only [Spec.step, Spec.assignMove] at h
        repeat' split at h
        all_goals first
          | (cases h; done)
          | exact hst _ _ _ _ _ hsome (hne _ _ h)
          | (simp only [Spec.Result.ret.injEq] at h; exact hself h.2)
          | (simp only [Spec.Result.ret.injEq] at h; simp [← h.2, Spec.put] at hz'; done)
          | (have h := hne _ _ h; cases h; done)
          | (simp_all [Spec.valueOf]; done)
    · exfalso
      have := (spec_frame (tr := tr) (T := T) (m := m) (n := n) (σ := σ) (o := .assignMove x y) (z := z)
        (by simp [Spec.changes, Spec.rebinds, Spec.movedFrom, hx, hy])).1 _ _ h
      simp [Spec.valueOf, this] at hz'' hz
      simp_all
  | assignFrom x u =>
    exfalso
    simp only [Spec.step, Spec.assignFrom] at h
    repeat' split at h
    · cases h
    · exact hst _ _ _ _ _ (hb u) h
    · cases u <;> simp only [Spec.assignValue] at h <;> (repeat' split at h) <;>
        simp only [Spec.Result.ret.injEq, reduceCtorEq] at h
      · exact hsetv h.2
      · exact hsetv h.2
      · rw [← h.2, valueOf_setVal (valueOf_setVal hz)] at hz''; cases hz''
  | swap x y =>
    rcases hsw _ _ h with ⟨rfl, h'⟩ | ⟨rfl, h'⟩
    · exact .inr (.inr (.inr ⟨_, by simp, h'⟩))
    · exact .inr (.inr (.inr ⟨_, by simp, h'⟩))
  | friendSwap x y =>
    rcases hsw _ _ h with ⟨rfl, h'⟩ | ⟨rfl, h'⟩
    · exact .inr (.inr (.inr ⟨_, by simp, h'⟩))
    · exact .inr (.inr (.inr ⟨_, by simp, h'⟩))
  | _ =>
    exfalso
    simp only [Spec.step] at h
    repeat' split at h
    all_goals first
      | (cases h; done)
      | (simp only [Spec.Result.ret.injEq] at h; first | exact hself h.2 | exact hsetv h.2)

end
end Verif.Indirect
