import Verif.Demo
import Verif.Proofs.IndirectEffects

/-!
# C05, C07, C08, C09: copy and move construction of `indirect`

`abs s x = some ⟨a, some v⟩` says: object `x` is alive in state `s`, its allocator is `a` and its value is `v`;
`abs s x = some ⟨a, none⟩` says that it is alive and valueless.  `addr s x` is the address `&*x`.
`available s e`: the allocator can serve a request; `e.choice 0` decides what the operation of `T` does.
-/

set_option autoImplicit false
set_option linter.unusedSectionVars false
set_option linter.unusedSimpArgs false

namespace Verif.Props
open Verif Indirect Demo

section
variable {L A R V X : Type} [DecidableEq L] [DecidableEq R]
variable {tr : ATraits A R} {T : TSpec V X} {s s' : St L A R (Obj V)} {e : Env} {x y : L} {a b : A} {v : V}
  {out : Out L A V} {ex : Exn}

/-! ## C52: value constructors -/

/-- A value constructor given arguments builds the `T` from exactly these arguments, in new storage of the given (or
default-constructed) allocator, and changes nothing else; if there is no storage or the constructor of `T` throws, that
exception comes out and nothing has changed. -/
theorem C52_construct_args (h : Reach tr T s) (S : tr.Sound) {c : Ctor L X} {oa : Option A} {xs : TArgs X}
    (hx : Spec.Dead (abs s) x) (ho : Spec.origin c = .args xs) :
    (∀ out s', call tr (plain T) (.make x oa c) e s = .ok out s' → out = .unit ∧ available s e = true ∧ ∃ w p,
      T.make xs (e.choice 0) = .ok w ∧ Spec.Created tr s s' s.heap x (oa.getD tr.dflt) w p .args ∧
      abs s' = Spec.put (abs s) x ⟨oa.getD tr.dflt, some w⟩) ∧
    (∀ ex s', call tr (plain T) (.make x oa c) e s = .threw ex s' →
      Spec.Untouched s s' ∧ Spec.CreateFailed tr s s' e s.heap (oa.getD tr.dflt) (T.make xs (e.choice 0)) ex) := by
  have := made_effect (tr := tr) (s := s) (e := e) (x := x)
    (make_eval_args (tr := tr) (T := T) (s := s.enter e) (oa := oa) (abs_dead hx) ho) rfl rfl
  refine ⟨fun out s' hc => ?_, fun ex s' hc => ?_⟩
  · obtain ⟨ho, w, p, hw, ha, C⟩ := this.1 _ _ hc
    exact ⟨ho, ha, w, p, hw, C, created_abs (h.inv S) C⟩
  · have C := this.2.1 _ _ hc
    refine ⟨?_, C⟩
    cases C with
    | noStorage _ _ h1 h2 _ => exact ⟨h1, h2⟩
    | ctorThrew p _ _ _ h1 h2 _ => exact ⟨h1, h2⟩

/-- A value constructor given `*y` builds the `T` with the copy constructor, from `*y`, which does not change. -/
theorem C52_construct_copy (h : Reach tr T s) (S : tr.Sound) {c : Ctor L X} {oa : Option A}
    (hx : Spec.Dead (abs s) x) (hy : abs s y = some ⟨b, some v⟩) (ho : Spec.origin c = .copyOf y) :
    (∀ out s', call tr (plain T) (.make x oa c) e s = .ok out s' → out = .unit ∧ available s e = true ∧ ∃ q w p,
      addr s y = some q ∧ T.copy v (e.choice 0) = .ok w ∧
      Spec.Created tr s s' s.heap x (oa.getD tr.dflt) w p (.copyOf q) ∧
      abs s' = Spec.put (abs s) x ⟨oa.getD tr.dflt, some w⟩) ∧
    (∀ ex s', call tr (plain T) (.make x oa c) e s = .threw ex s' →
      Spec.Untouched s s' ∧ Spec.CreateFailed tr s s' e s.heap (oa.getD tr.dflt) (T.copy v (e.choice 0)) ex) := by
  obtain ⟨q, r, hk, hq⟩ := engaged hy
  have := made_effect (tr := tr) (s := s) (e := e) (x := x)
    (make_eval_copy (tr := tr) (T := T) (s := s.enter e) (oa := oa) (abs_dead hx) ho hk rfl hq) rfl rfl
  refine ⟨fun out s' hc => ?_, fun ex s' hc => ?_⟩
  · obtain ⟨ho, w, p, hw, ha, C⟩ := this.1 _ _ hc
    exact ⟨ho, ha, q, w, p, by simp [addr, hk], hw, C, created_abs (h.inv S) C⟩
  · have C := this.2.1 _ _ hc
    refine ⟨?_, C⟩
    cases C with
    | noStorage _ _ h1 h2 _ => exact ⟨h1, h2⟩
    | ctorThrew p _ _ _ h1 h2 _ => exact ⟨h1, h2⟩

/-- A value constructor given `std::move(*y)` builds the `T` with the move constructor; `y` stays engaged and owns what
the move constructor left. -/
theorem C52_construct_move {c : Ctor L X} {oa : Option A}
    (hx : Spec.Dead (abs s) x) (hy : abs s y = some ⟨b, some v⟩) (ho : Spec.origin c = .moveOf y) :
    (∀ out s', call tr (plain T) (.make x oa c) e s = .ok out s' → out = .unit ∧ available s e = true ∧ ∃ q w p,
      addr s y = some q ∧ (T.move v (e.choice 0)).1 = .ok w ∧
      Spec.Created tr s s' (Spec.leftWith s.heap q (T.move v (e.choice 0)).2) x (oa.getD tr.dflt) w p (.moveOf q)) ∧
    (∀ ex s', call tr (plain T) (.make x oa c) e s = .threw ex s' → ∃ q, addr s y = some q ∧
      Spec.CreateFailed tr s s' e (Spec.leftWith s.heap q (T.move v (e.choice 0)).2) (oa.getD tr.dflt)
        (T.move v (e.choice 0)).1 ex) := by
  obtain ⟨q, r, hk, hq⟩ := engaged hy
  have := made_effect (tr := tr) (s := s) (e := e) (x := x)
    (make_eval_move (tr := tr) (T := T) (s := s.enter e) (oa := oa) (abs_dead hx) ho hk rfl hq) rfl rfl
  refine ⟨fun out s' hc => ?_, fun ex s' hc => ?_⟩
  · obtain ⟨ho, w, p, hw, ha, C⟩ := this.1 _ _ hc
    exact ⟨ho, ha, q, w, p, by simp [addr, hk], hw, by rw [leftWith_eq hq]; exact C⟩
  · exact ⟨q, by simp [addr, hk], by rw [leftWith_eq hq]; exact this.2.1 _ _ hc⟩

/-- The documented source of the new `T`, for every value constructor. -/
example (x : X) (us l : List X) (y : L) :
    Spec.origin (.default : Ctor L X) = .args .none ∧ Spec.origin (.inPlace us : Ctor L X) = .args (.pack us) ∧
    Spec.origin (.ilist l us : Ctor L X) = .args (.ilist l us) ∧
    Spec.origin (.from (.arg x) : Ctor L X) = .args (.pack [x]) ∧
    Spec.origin (.inPlaceOne (.lval y) : Ctor L X) = .copyOf y ∧ Spec.origin (.from (.rval y) : Ctor L X) = .moveOf y :=
  ⟨rfl, rfl, rfl, rfl, rfl, rfl⟩

-- C52: constructions that return and that throw.
example : Spec.Dead (abs s0) 9 ∧ abs s0 1 = some ⟨5, some 7⟩ ∧
    outcome (call (alloc false false false) (plain Demo.T) (.make 9 (some 6) (.ilist [1, 2] [3])) (fine 200) s0) = 0 ∧
    outcome (call (alloc false false false) (plain Demo.T) (.make 9 none (.inPlaceOne (.lval 1))) (bad 200) s0) = 1 ∧
    outcome (call (alloc false false false) (plain Demo.T) (.make 9 none (.from (.rval 1))) (fine 200) s0) = 0 := by decide

/-! ## C07: allocator-extended copy -/

/-- If the source is engaged and the call returns: `x` has the given allocator and owns a copy of `*y`, made by
`T`'s copy constructor in new storage of that allocator; nothing else changed, in particular not `y`. -/
theorem C07_copy_engaged (h : Reach tr T s) (S : tr.Sound) (hx : Spec.Dead (abs s) x)
    (hy : abs s y = some ⟨b, some v⟩) (hc : call tr (plain T) (.copyA x a y) e s = .ok out s') :
    out = .unit ∧ available s e = true ∧ ∃ q p w, addr s y = some q ∧ T.copy v (e.choice 0) = .ok w ∧
      Spec.Created tr s s' s.heap x a w p (.copyOf q) ∧ abs s' = Spec.put (abs s) x ⟨a, some w⟩ ∧
      addr s' y = some q ∧ addr s' x ≠ some q := by
  obtain ⟨q, r, hk, hq⟩ := engaged hy
  have := made_effect (tr := tr) (s := s) (e := e) (x := x)
    (copyA_eval (tr := tr) (T := T) (a := a) (s := s.enter e) (abs_dead hx) hk rfl hq) rfl rfl
  obtain ⟨ho, w, p, hw, ha, C⟩ := this.1 _ _ hc
  have hxy : y ≠ x := by rintro rfl; simp [abs_dead hx] at hk
  refine ⟨ho, ha, q, p, w, by simp [addr, hk], hw, C, created_abs (h.inv S) C, ?_, ?_⟩
  · simp [addr, C.others y hxy, hk]
  · simp only [addr, C.owner]
    rintro ⟨rfl⟩
    have := C.fresh
    simp [hq] at this

/-- If the source is valueless the call returns, `x` is valueless and nothing else happens. -/
theorem C07_copy_valueless (h : Reach tr T s) (S : tr.Sound) (hx : Spec.Dead (abs s) x)
    (hy : abs s y = some ⟨b, none⟩) (e : Env) :
    ∃ s', call tr (plain T) (.copyA x a y) e s = .ok .unit s' ∧ abs s' = Spec.put (abs s) x ⟨a, none⟩ ∧
      (∀ z, z ≠ x → addr s' z = addr s z) ∧ s'.heap = s.heap ∧ Spec.Silent s s' := by
  refine ⟨_, copyA_null (s := s.enter e) (abs_dead hx) (disengaged (h.inv S) hy) rfl, ?_, ?_, rfl, rfl⟩
  · exact abs_createNull (val := fun b => b)
  · intro z hz; simp [addr, upd_other _ _ hz]; rfl

/-- If the call throws nothing has changed: no object, no `T`, no storage; `x` does not exist. -/
theorem C07_copy_throws (hx : Spec.Dead (abs s) x)
    (hy : abs s y = some ⟨b, some v⟩) (hc : call tr (plain T) (.copyA x a y) e s = .threw ex s') :
    Spec.Untouched s s' ∧ Spec.Dead (abs s') x ∧
      Spec.CreateFailed tr s s' e s.heap a (T.copy v (e.choice 0)) ex := by
  obtain ⟨q, r, hk, hq⟩ := engaged hy
  have := made_effect (tr := tr) (s := s) (e := e) (x := x)
    (copyA_eval (tr := tr) (T := T) (a := a) (s := s.enter e) (abs_dead hx) hk rfl hq) rfl rfl
  have C := this.2.1 _ _ hc
  have hu : Spec.Untouched s s' := by
    cases C with
    | noStorage _ _ h1 h2 _ => exact ⟨h1, h2⟩
    | ctorThrew p _ _ _ h1 h2 _ => exact ⟨h1, h2⟩
  refine ⟨hu, ?_, C⟩
  have := abs_dead hx
  simp [Spec.Dead, abs, absWith, hu.1, this]

/-- The copy of an engaged object returns exactly if storage is available and `T`'s copy constructor does not
throw; otherwise it throws. -/
theorem C07_copy_outcome (hx : Spec.Dead (abs s) x) (hy : abs s y = some ⟨b, some v⟩) (e : Env) :
    ((∃ out s', call tr (plain T) (.copyA x a y) e s = .ok out s') ↔
      available s e = true ∧ ∃ w, T.copy v (e.choice 0) = .ok w) ∧
    ((∃ ex s', call tr (plain T) (.copyA x a y) e s = .threw ex s') ↔
      ¬ (available s e = true ∧ ∃ w, T.copy v (e.choice 0) = .ok w)) := by
  obtain ⟨q, r, hk, hq⟩ := engaged hy
  have E := copyA_eval (tr := tr) (T := T) (a := a) (s := s.enter e) (abs_dead hx) hk rfl hq
  rw [available_eq] at E
  unfold call
  rw [E]
  cases ha : available s e <;> simp only [if_true, if_false, Bool.false_eq_true]
  · simp
  · show ((∃ out s', madeFrom _ _ _ _ _ _ _ (T.copy v (e.choice 0)) = _) ↔ _) ∧
      ((∃ out s', madeFrom _ _ _ _ _ _ _ (T.copy v (e.choice 0)) = _) ↔ _)
    cases T.copy v (e.choice 0) <;> simp [madeFrom]

/-! ## C05: copy construction.  The allocator is `select_on_container_copy_construction` of the source's. -/

theorem copy_is_copyA {k : Spec.Box A V} (hy : abs s y = some k) :
    call tr (plain T) (.copy x y) e s = call tr (plain T) (.copyA x (tr.socc k.alloc) y) e s := by
  obtain ⟨p, hk⟩ := alive hy
  exact copy_copyA (s := s.enter e) hk

/-- If the source is engaged and the call returns: `x` owns a copy of `*y`, made by `T`'s copy constructor in
new storage; nothing else changed, in particular not `y` nor the address of its `T`. -/
theorem C05_copy_engaged (h : Reach tr T s) (S : tr.Sound) (hx : Spec.Dead (abs s) x)
    (hy : abs s y = some ⟨b, some v⟩) (hc : call tr (plain T) (.copy x y) e s = .ok out s') :
    out = .unit ∧ available s e = true ∧ ∃ q p w, addr s y = some q ∧ T.copy v (e.choice 0) = .ok w ∧
      Spec.Created tr s s' s.heap x (tr.socc b) w p (.copyOf q) ∧
      abs s' = Spec.put (abs s) x ⟨tr.socc b, some w⟩ ∧ addr s' y = some q ∧ addr s' x ≠ some q := by
  rw [copy_is_copyA hy] at hc
  exact C07_copy_engaged h S hx hy hc

/-- If the source is valueless so is `x`, and nothing else happens. -/
theorem C05_copy_valueless (h : Reach tr T s) (S : tr.Sound) (hx : Spec.Dead (abs s) x)
    (hy : abs s y = some ⟨b, none⟩) (e : Env) :
    ∃ s', call tr (plain T) (.copy x y) e s = .ok .unit s' ∧ abs s' = Spec.put (abs s) x ⟨tr.socc b, none⟩ ∧
      (∀ z, z ≠ x → addr s' z = addr s z) ∧ s'.heap = s.heap ∧ Spec.Silent s s' := by
  rw [copy_is_copyA hy]
  exact C07_copy_valueless h S hx hy e

/-- If the call throws nothing has changed and `x` does not exist. -/
theorem C05_copy_throws (hx : Spec.Dead (abs s) x) (hy : abs s y = some ⟨b, some v⟩)
    (hc : call tr (plain T) (.copy x y) e s = .threw ex s') :
    Spec.Untouched s s' ∧ Spec.Dead (abs s') x ∧
      Spec.CreateFailed tr s s' e s.heap (tr.socc b) (T.copy v (e.choice 0)) ex := by
  rw [copy_is_copyA hy] at hc
  exact C07_copy_throws hx hy hc

/-- The copy of an engaged object returns exactly if storage is available and `T`'s copy constructor does not
throw; otherwise it throws. -/
theorem C05_copy_outcome (hx : Spec.Dead (abs s) x) (hy : abs s y = some ⟨b, some v⟩) (e : Env) :
    ((∃ out s', call tr (plain T) (.copy x y) e s = .ok out s') ↔
      available s e = true ∧ ∃ w, T.copy v (e.choice 0) = .ok w) ∧
    ((∃ ex s', call tr (plain T) (.copy x y) e s = .threw ex s') ↔
      ¬ (available s e = true ∧ ∃ w, T.copy v (e.choice 0) = .ok w)) := by
  rw [copy_is_copyA hy]
  exact C07_copy_outcome hx hy e

/-! ## C08, C09: move construction -/

theorem moveA_transfers {k : Spec.Box A V} (hx : Spec.Dead (abs s) x) (hy : abs s y = some k)
    (hq : tr.alwaysEqual = true ∨ tr.eq a k.alloc = true) (e : Env) :
    ∃ s', call tr (plain T) (.moveA x a y) e s = .ok .unit s' ∧ Spec.Transferred s s' x a y k := by
  obtain ⟨k', hk, ha, hv⟩ := abs_some hy
  refine ⟨_, moveA_steal (s := s.enter e) (abs_dead hx) hk (by rw [← ha]; exact hq), ⟨?_, ?_, ?_, rfl, rfl⟩⟩
  · simp only [abs]
    rw [abs_put, abs_put, ha]
    congr 1
    rw [hv]; rfl
  · simp [addr, hk]
  · intro z h1 h2; simp [upd_other _ _ h1, upd_other _ _ h2]; rfl

/-- C08: with a reflexive `==`, move construction never throws and transfers ownership; the new object has (a copy
of) the source's allocator. -/
theorem C08_move_transfers (Rf : tr.Reflexive) {k : Spec.Box A V} (hx : Spec.Dead (abs s) x)
    (hy : abs s y = some k) (e : Env) :
    ∃ s', call tr (plain T) (.move x y) e s = .ok .unit s' ∧ Spec.Transferred s s' x k.alloc y k := by
  obtain ⟨p, hk⟩ := alive hy
  have : call tr (plain T) (.move x y) e s = call tr (plain T) (.moveA x k.alloc y) e s :=
    move_moveA (s := s.enter e) hk
  rw [this]
  exact moveA_transfers hx hy (.inr (Rf.eq_refl _)) e

/-- C08 for allocators with `is_always_equal`, whatever their `==`. -/
theorem C08_move_transfers_alwaysEqual (ha : tr.alwaysEqual = true) {k : Spec.Box A V} (hx : Spec.Dead (abs s) x)
    (hy : abs s y = some k) (e : Env) :
    ∃ s', call tr (plain T) (.move x y) e s = .ok .unit s' ∧ Spec.Transferred s s' x k.alloc y k := by
  obtain ⟨p, hk⟩ := alive hy
  have : call tr (plain T) (.move x y) e s = call tr (plain T) (.moveA x k.alloc y) e s :=
    move_moveA (s := s.enter e) hk
  rw [this]
  exact moveA_transfers hx hy (.inl ha) e

/-- C09, interchangeable allocators: ownership is transferred. -/
theorem C09_moveA_transfers {k : Spec.Box A V} (hx : Spec.Dead (abs s) x) (hy : abs s y = some k)
    (hq : tr.alwaysEqual = true ∨ tr.eq a k.alloc = true) (e : Env) :
    ∃ s', call tr (plain T) (.moveA x a y) e s = .ok .unit s' ∧ Spec.Transferred s s' x a y k :=
  moveA_transfers hx hy hq e

/-- C09, different allocators: `x` has the given allocator and owns a `T` move-constructed from `*y` in new storage
of that allocator; `*y` is what `T`'s move constructor left.
Missing: DRAFT.md's claim that `y` is valueless afterwards.  It is false of the code in this case, see
`C09_source_not_always_valueless`. -/
theorem C09_moveA_unequal_partial (h : Reach tr T s) (S : tr.Sound) (hx : Spec.Dead (abs s) x)
    (hy : abs s y = some ⟨b, some v⟩) (h1 : tr.alwaysEqual = false) (h2 : tr.eq a b = false)
    (hc : call tr (plain T) (.moveA x a y) e s = .ok out s') :
    out = .unit ∧ ∃ q p w, addr s y = some q ∧ (T.move v (e.choice 0)).1 = .ok w ∧
      Spec.Created tr s s' (Spec.leftWith s.heap q (T.move v (e.choice 0)).2) x a w p (.moveOf q) ∧
      abs s' = Spec.put (Spec.put (abs s) y ⟨b, some (T.move v (e.choice 0)).2⟩) x ⟨a, some w⟩ ∧
      addr s' y = some q := by
  obtain ⟨q, r, hk, hq⟩ := engaged hy
  have M := made_effect (tr := tr) (s := s) (e := e) (x := x)
    (moveA_eval (tr := tr) (T := T) (a := a) (s := s.enter e) (abs_dead hx) hk rfl hq h1 h2) rfl rfl
  obtain ⟨ho, w, p, hw, ha, C⟩ := M.1 _ _ hc
  have hxy : y ≠ x := by rintro rfl; simp [abs_dead hx] at hk
  refine ⟨ho, q, p, w, by simp [addr, hk], hw, ?_, ?_, ?_⟩
  · rw [leftWith_eq hq]; exact C
  · have R := call_refines (e := e) (o := .moveA x a y) S h ⟨hx, ⟨_, hy⟩⟩
    rw [hc] at R
    change (T.move v (e.choice 0)).1 = .ok w at hw
    simp only [Spec.step, Spec.moveA, hy, h1, h2, ha, Bool.or_self, Bool.false_eq_true, if_false, if_true,
      Spec.noexceptIf, hw, Spec.store, Refines] at R
    rw [R.2.1, setVal_put hy]
  · simp [addr, C.others y hxy, hk]

/-- C09, different allocators, valueless source: `x` is valueless, nothing else happens. -/
theorem C09_moveA_valueless (h : Reach tr T s) (S : tr.Sound) (hx : Spec.Dead (abs s) x)
    (hy : abs s y = some ⟨b, none⟩) (h1 : tr.alwaysEqual = false) (h2 : tr.eq a b = false) (e : Env) :
    ∃ s', call tr (plain T) (.moveA x a y) e s = .ok .unit s' ∧ abs s' = Spec.put (abs s) x ⟨a, none⟩ ∧
      s'.heap = s.heap ∧ Spec.Silent s s' := by
  refine ⟨_, moveA_null (s := s.enter e) (abs_dead hx) (disengaged (h.inv S) hy) rfl h1 h2, ?_, rfl, rfl⟩
  exact abs_createNull (val := fun b => b)

/-- C09, different allocators, throwing: no new object, and `y` owns its `T` at the same address; it is unchanged if
there was no storage, and is what `T`'s move constructor left if that threw. -/
theorem C09_moveA_throws (hx : Spec.Dead (abs s) x)
    (hy : abs s y = some ⟨b, some v⟩) (h1 : tr.alwaysEqual = false) (h2 : tr.eq a b = false)
    (hc : call tr (plain T) (.moveA x a y) e s = .threw ex s') :
    ∃ q, addr s y = some q ∧ addr s' y = some q ∧
      Spec.CreateFailed tr s s' e (Spec.leftWith s.heap q (T.move v (e.choice 0)).2) a
        (T.move v (e.choice 0)).1 ex := by
  obtain ⟨q, r, hk, hq⟩ := engaged hy
  have M := made_effect (tr := tr) (s := s) (e := e) (x := x)
    (moveA_eval (tr := tr) (T := T) (a := a) (s := s.enter e) (abs_dead hx) hk rfl hq h1 h2) rfl rfl
  have C := M.2.1 _ _ hc
  refine ⟨q, by simp [addr, hk], ?_, by rw [leftWith_eq hq]; exact C⟩
  have : s'.hs = s.hs := by
    cases C with
    | noStorage _ _ h1 h2 _ => exact h1
    | ctorThrew p _ _ _ h1 h2 _ => exact h1
  simp [addr, this, hk]

end

/-! ### Instances -/

section
/-- The hypotheses of the theorems above hold of `s0`, and every kind of outcome occurs. -/
example : (alloc false false false).Sound ∧ (alloc false false false).Reflexive ∧
    Spec.Dead (abs s0) 9 ∧ abs s0 1 = some ⟨5, some 7⟩ ∧ abs s0 4 = some ⟨6, none⟩ ∧
    (alloc false false false).alwaysEqual = false ∧ (alloc false false false).eq 6 5 = false :=
  ⟨alloc_sound _ _ _, alloc_refl _ _ _, by decide, by decide, by decide, rfl, rfl⟩

example : outcome (call (alloc false false false) (plain T) (.copyA 9 6 1) (fine 200) s0) = 0 ∧
    outcome (call (alloc false false false) (plain T) (.copyA 9 6 1) (bad 200) s0) = 1 ∧
    outcome (call (alloc false false false) (plain T) (.copy 9 1) full s0) = 1 ∧
    outcome (call (alloc false false false) (plain T) (.moveA 9 6 1) (fine 200) s0) = 0 ∧
    outcome (call (alloc false false false) (plain T) (.moveA 9 6 1) (bad 200) s0) = 1 := by
  decide

/-- C09: DRAFT.md's postcondition "`other` is valueless" is false of the code: object 1 still owns a `T` after the
allocator-extended move construction of object 9 from it with a different allocator. -/
theorem C09_source_not_always_valueless :
    ∃ s', call (alloc false false false) (plain T) (.moveA 9 6 1) (fine 200) s0 = .ok .unit s' ∧
      abs s' 9 = some ⟨6, some 7⟩ ∧ abs s' 1 = some ⟨5, some 0⟩ := by
  refine ⟨stateAfter s0 (call (alloc false false false) (plain T) (.moveA 9 6 1) (fine 200) s0),
    rfl, ?_, ?_⟩ <;> decide

end
end Verif.Props
