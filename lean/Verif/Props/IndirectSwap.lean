import Verif.Demo
import Verif.Proofs.IndirectEffects

/-!
# C14, C15, C20, C21: self operations, swap, observers, destruction of `indirect`
-/

set_option autoImplicit false
set_option linter.unusedSectionVars false
set_option linter.unusedSimpArgs false

namespace Verif.Props
open Verif Indirect Demo

section
variable {L A R V X : Type} [DecidableEq L] [DecidableEq R]
variable {tr : ATraits A R} {T : TSpec V X} {s s' : St L A R (Obj V)} {e : Env} {x y : L} {a b : A} {d v : V}
  {out : Out L A V} {ex : Exn} {k l : Spec.Box A V}

/-! ## C14 -/

/-- `x = x` does nothing, whatever the allocator and the state of `x`. -/
theorem C14_self_copy_assign (tr : ATraits A R) (T : TSpec V X) (s : St L A R (Obj V)) (x : L) (e : Env) :
    ∃ s', call tr (plain T) (.assignCopy x x) e s = .ok (.self x) s' ∧ Spec.Untouched s s' ∧ Spec.Silent s s' := by
  refine ⟨s.enter e, ?_, ⟨rfl, rfl⟩, rfl⟩
  simp [call, step, assignCopy]

/-- `x = std::move(x)` does nothing, whatever the allocator and the state of `x`. -/
theorem C14_self_move_assign (tr : ATraits A R) (T : TSpec V X) (s : St L A R (Obj V)) (x : L) (e : Env) :
    ∃ s', call tr (plain T) (.assignMove x x) e s = .ok (.self x) s' ∧ Spec.Untouched s s' ∧ Spec.Silent s s' := by
  refine ⟨s.enter e, ?_, ⟨rfl, rfl⟩, rfl⟩
  simp [call, step, assignMove, M.bind_eq, M.noexceptIf]

/-- `x.swap(x)` does nothing, if it is legal (a reflexive `==` or propagation makes it legal). -/
theorem C14_self_swap (hl : Spec.Legal tr (abs s) (.swap x x : Op L A V X)) (e : Env) :
    ∃ s', call tr (plain T) (.swap x x) e s = .ok .unit s' ∧ Spec.Untouched s s' ∧ Spec.Silent s s' := by
  obtain ⟨k, l, hx, hy, hq⟩ := hl
  rw [hx] at hy; cases hy
  obtain ⟨p, hk⟩ := alive hx
  refine ⟨_, swap_eval (s := s.enter e) hk hk hq, ⟨?_, rfl⟩, rfl⟩
  simp only [upd_upd, ite_self]
  exact upd_id _ _ _ hk

/-- The same for the free function. -/
theorem C14_self_friend_swap (hl : Spec.Legal tr (abs s) (.friendSwap x x : Op L A V X)) (e : Env) :
    ∃ s', call tr (plain T) (.friendSwap x x) e s = .ok .unit s' ∧ Spec.Untouched s s' ∧ Spec.Silent s s' := by
  unfold call
  rw [friendSwap_swap]
  exact C14_self_swap hl e

/-- With a reflexive `==` self-swap is always legal. -/
theorem C14_self_swap_legal (Rf : tr.Reflexive) (hx : abs s x = some k) :
    Spec.Legal tr (abs s) (.swap x x : Op L A V X) := ⟨k, k, hx, hx, .inr (Rf.eq_refl _)⟩

/-! ## C15 -/

/-- A legal swap returns and exchanges the owned objects by address; the allocators are exchanged exactly if they
propagate; no storage, no `T`, no other object and no allocator is involved. -/
theorem C15_swap (hx : abs s x = some k) (hy : abs s y = some l) (hxy : x ≠ y)
    (hq : tr.pocs = true ∨ tr.eq k.alloc l.alloc = true) (e : Env) :
    ∃ s', call tr (plain T) (.swap x y) e s = .ok .unit s' ∧
      addr s' x = addr s y ∧ addr s' y = addr s x ∧
      abs s' x = some ⟨if tr.pocs then l.alloc else k.alloc, l.val⟩ ∧
      abs s' y = some ⟨if tr.pocs then k.alloc else l.alloc, k.val⟩ ∧
      (∀ z, z ≠ x → z ≠ y → s'.hs z = s.hs z) ∧ s'.heap = s.heap ∧ Spec.Silent s s' := by
  obtain ⟨t, ht, hta, htv⟩ := abs_some hx
  obtain ⟨o, ho, hoa, hov⟩ := abs_some hy
  refine ⟨_, swap_eval (s := s.enter e) ht ho (by rw [← hta, ← hoa]; exact hq), ?_, ?_, ?_, ?_, ?_, rfl, rfl⟩
  · simp [addr, ho, upd_other _ _ hxy]
  · simp [addr, ht]
  · simp [abs, absWith, upd_other _ _ hxy, hta, hoa, hov]
    rfl
  · simp [abs, absWith, hta, hoa, htv]
    rfl
  · intro z h1 h2; simp [upd_other _ _ h1, upd_other _ _ h2]; rfl

/-- The free function does the same as the member. -/
theorem C15_friend_swap (tr : ATraits A R) (T : TSpec V X) (x y : L) (e : Env) (s : St L A R (Obj V)) :
    call tr (plain T) (.friendSwap x y) e s = call tr (plain T) (.swap x y) e s := by
  unfold call; rw [friendSwap_swap]

/-- Swapping twice restores every object and all storage. -/
theorem C15_swap_twice (hx : abs s x = some k) (hy : abs s y = some l)
    (hq : tr.pocs = true ∨ tr.eq k.alloc l.alloc = true) (e : Env)
    (hc : call tr (plain T) (.swap x y) e s = .ok out s') (e' : Env) :
    ∃ s'', call tr (plain T) (.swap x y) e' s' = .ok .unit s'' ∧ Spec.Untouched s s'' ∧ Spec.Silent s s'' := by
  obtain ⟨t, ht, hta, htv⟩ := abs_some hx
  obtain ⟨o, ho, hoa, hov⟩ := abs_some hy
  have E := swap_eval (tr := tr) (T := T) (s := s.enter e) ht ho (by rw [← hta, ← hoa]; exact hq)
  change call tr (plain T) (.swap x y) e s = _ at E
  rw [hc] at E
  cases E
  by_cases hxy : x = y
  · subst hxy
    rw [ht] at ho; cases ho
    refine ⟨_, swap_eval (s := St.enter _ e') (by simp [St.enter]; rfl) (by simp [St.enter]; rfl) ?_, ⟨?_, rfl⟩, rfl⟩
    · simpa [hta, hoa] using hq
    · simp only [St.enter, upd_upd, ite_self]
      exact upd_id _ _ _ ht
  · refine ⟨_, swap_eval (s := St.enter _ e') (t := ⟨o.p, if tr.pocs then o.alloc else t.alloc⟩)
      (o := ⟨t.p, if tr.pocs then t.alloc else o.alloc⟩) (by simp [St.enter, upd_other _ _ hxy])
      (by simp [St.enter]) ?_, ⟨?_, rfl⟩, rfl⟩
    · rcases hq with h | h
      · exact .inl h
      · by_cases hp : tr.pocs = true
        · exact .inl hp
        · rw [hta, hoa] at h; simp [hp, h]
    · funext z
      simp only [St.enter, upd]
      by_cases hzy : z = y
      · subst hzy; simp [ho]; cases o; cases tr.pocs <;> simp
      · by_cases hzx : z = x
        · subst hzx; simp [hzy, ht]; cases t; cases tr.pocs <;> simp
        · simp [hzy, hzx]

/-- If the allocators neither propagate nor compare equal the call is undefined: it reaches `std::unreachable()`. -/
theorem C15_swap_undefined (hx : abs s x = some k) (hy : abs s y = some l)
    (h1 : tr.pocs = false) (h2 : tr.eq k.alloc l.alloc = false) (e : Env) :
    call tr (plain T) (.swap x y) e s = .ub .unreachable := by
  obtain ⟨t, ht, hta, htv⟩ := abs_some hx
  obtain ⟨o, ho, hoa, hov⟩ := abs_some hy
  exact swap_undefined (s := s.enter e) ht ho h1 (by rw [← hta, ← hoa]; exact h2)

/-! ## C20 -/

/-- `*x` is defined exactly if `x` is alive and engaged; it then gives the current value and changes nothing. -/
theorem C20_deref (S : tr.Sound) (h : Reach tr T s) (x : L) (e : Env) :
    (∀ v, Spec.valueOf (abs s) x = some v →
      ∃ s', call tr (plain T) (.deref x) e s = .ok (.value v) s' ∧ Spec.Untouched s s' ∧ Spec.Silent s s') ∧
    (Spec.valueOf (abs s) x = none → ∃ u, call tr (plain T) (.deref x) e s = .ub u) := by
  constructor
  · intro v hv
    obtain ⟨k, q, r, hk, hq, hh⟩ := abs_valueOf hv
    exact ⟨s.enter e, deref_eval (s := s.enter e) hk hq hh, ⟨rfl, rfl⟩, rfl⟩
  · intro hv
    cases hk : s.hs x with
    | none => exact ⟨.deadHandle, by simp [call, step, deref, getH, St.enter, M.bind_eq, hk]⟩
    | some k =>
      cases hp : k.p with
      | none => exact ⟨.valuelessAccess, by simp [call, step, deref, getH, St.enter, M.bind_eq, hk, hp]⟩
      | some p =>
        obtain ⟨w, hw⟩ := (h.inv S).own' hk hp
        rw [valueOf_abs hk hp hw] at hv; cases hv

/-- `x->` likewise. -/
theorem C20_arrow (S : tr.Sound) (h : Reach tr T s) (x : L) (e : Env) :
    (∀ v, Spec.valueOf (abs s) x = some v →
      ∃ s', call tr (plain T) (.arrow x) e s = .ok (.value v) s' ∧ Spec.Untouched s s' ∧ Spec.Silent s s') ∧
    (Spec.valueOf (abs s) x = none → ∃ u, call tr (plain T) (.arrow x) e s = .ub u) := by
  constructor
  · intro v hv
    obtain ⟨k, q, r, hk, hq, hh⟩ := abs_valueOf hv
    exact ⟨s.enter e, arrow_eval (s := s.enter e) hk hq hh, ⟨rfl, rfl⟩, rfl⟩
  · intro hv
    cases hk : s.hs x with
    | none => exact ⟨.deadHandle, by simp [call, step, arrow, getH, St.enter, M.bind_eq, hk]⟩
    | some k =>
      cases hp : k.p with
      | none => exact ⟨.valuelessAccess, by simp [call, step, arrow, getH, St.enter, M.bind_eq, hk, hp]⟩
      | some p =>
        obtain ⟨w, hw⟩ := (h.inv S).own' hk hp
        rw [valueOf_abs hk hp hw] at hv; cases hv

/-- The reference that `operator*` and `operator->` return is the address of the owned `T`. -/
theorem C20_same_object (s : St L A R (Obj V)) (x : L) {p : Addr} (h : addr s x = some p) :
    Indirect.deref x s = .ok p s ∧ Indirect.arrow x s = .ok p s := by
  obtain ⟨k, hk, hp⟩ := addr_some h
  simp [deref, arrow, getH, M.bind_eq, hk, hp]

/-- `valueless_after_move` tells whether `x` is valueless and changes nothing. -/
theorem C20_valueless (S : tr.Sound) (h : Reach tr T s) (hx : abs s x = some k) (e : Env) :
    ∃ s', call tr (plain T) (.valueless x) e s = .ok (.bool k.val.isNone) s' ∧ Spec.Untouched s s' ∧
      Spec.Silent s s' := by
  obtain ⟨t, ht, hta, htv⟩ := abs_some hx
  refine ⟨s.enter e, ?_, ⟨rfl, rfl⟩, rfl⟩
  have : k.val.isNone = (t.p == none) := by
    cases hp : t.p with
    | none => simp [hp, htv]
    | some p =>
      obtain ⟨w, hw⟩ := (h.inv S).own' ht hp
      simp [hp, hw, htv]
  rw [this]
  exact valueless_step (s := s.enter e) ht

/-- `get_allocator` returns the allocator of `x` and changes nothing. -/
theorem C20_get_allocator (hx : abs s x = some k) (e : Env) :
    ∃ s', call tr (plain T) (.getAllocator x) e s = .ok (.alloc k.alloc) s' ∧ Spec.Untouched s s' ∧
      Spec.Silent s s' := by
  obtain ⟨t, ht, hta, htv⟩ := abs_some hx
  refine ⟨s.enter e, ?_, ⟨rfl, rfl⟩, rfl⟩
  rw [hta]
  exact getAllocator_step (s := s.enter e) ht

/-- Writing through `*x` changes the value of `x` and nothing else: no other object, no address, no allocator. -/
theorem C20_write (S : tr.Sound) (h : Reach tr T s) (hx : abs s x = some ⟨a, some v⟩) (f : V → V) (e : Env) :
    ∃ s', call tr (plain T) (.modify x f) e s = .ok .unit s' ∧
      abs s' = Spec.put (abs s) x ⟨a, some (f v)⟩ ∧ s'.hs = s.hs ∧
      (∀ q, addr s x ≠ some q → s'.heap q = s.heap q) ∧ Spec.Silent s s' := by
  obtain ⟨p, r, hk, hp⟩ := engaged hx
  refine ⟨_, modify_eval (s := s.enter e) hk rfl hp, ?_, rfl, ?_, rfl⟩
  · have := abs_write (val := fun b => b) (h.inv S) (r := r) (b' := some (f v)) hk rfl
    exact this.trans (setVal_put hx)
  · intro q hq
    have : q ≠ p := by rintro rfl; exact hq (by simp [addr, hk])
    simp [upd_other _ _ this]; rfl

/-! ## C21 -/

/-- Destroying an engaged `x` destroys its `T` and then returns its storage to its allocator, once each, and nothing
else happens; never throws. -/
theorem C21_destroy_engaged (S : tr.Sound) (h : Reach tr T s) (hx : abs s x = some ⟨a, some v⟩) (e : Env) :
    ∃ s' p, call tr (plain T) (.destroy x) e s = .ok .unit s' ∧ addr s x = some p ∧
      s'.trace = s.trace ++ [.destroy p, .dealloc (tr.res a) p] ∧
      s'.hs x = none ∧ (∀ z, z ≠ x → s'.hs z = s.hs z) ∧
      s'.heap p = none ∧ (∀ q, q ≠ p → s'.heap q = s.heap q) ∧ abs s' = Spec.drop (abs s) x := by
  obtain ⟨p, r, hk, hp⟩ := engaged hx
  have E := destroy_eval (T := T) (h.inv' S e) hk
  refine ⟨_, p, E, by simp [addr, hk], by simp [freedEvents]; rfl, by simp, ?_, by simp [freedHeap], ?_, ?_⟩
  · intro z hz; simp [upd_other _ _ hz]; rfl
  · intro q hq; simp [freedHeap, upd_other _ _ hq]; rfl
  · have R := call_ok_spec (o := .destroy x) S h ⟨_, hx⟩ E
    simp only [Spec.step, Spec.Result.ret.injEq] at R
    exact R.2.symm

/-- Destroying a valueless `x` ends its lifetime and nothing else happens. -/
theorem C21_destroy_valueless (S : tr.Sound) (h : Reach tr T s) (hx : abs s x = some ⟨a, none⟩) (e : Env) :
    ∃ s', call tr (plain T) (.destroy x) e s = .ok .unit s' ∧ Spec.Silent s s' ∧
      s'.hs x = none ∧ (∀ z, z ≠ x → s'.hs z = s.hs z) ∧ s'.heap = s.heap := by
  have hk := disengaged (h.inv S) hx
  have E := destroy_eval (T := T) (h.inv' S e) hk
  refine ⟨_, E, by simp [freedEvents, Spec.Silent]; rfl, by simp, ?_, by simp [freedHeap]; rfl⟩
  intro z hz; simp [upd_other _ _ hz]; rfl

end

/-! ### Instances -/

/-- The hypotheses of the theorems above hold of `s0`. -/
example : (alloc false false false).Sound ∧ Reach (alloc false false false) T s0 ∧
    abs s0 1 = some ⟨5, some 7⟩ ∧ abs s0 2 = some ⟨5, some 8⟩ ∧ abs s0 3 = some ⟨6, some 9⟩ ∧
    abs s0 4 = some ⟨6, none⟩ ∧ (alloc false false false).eq 5 5 = true ∧ (alloc false false false).eq 5 6 = false ∧
    Spec.Legal (alloc false false false) (abs s0) (.swap 1 1 : Op Nat Nat Nat Nat) ∧
    Spec.valueOf (abs s0) 1 = some 7 ∧ Spec.valueOf (abs s0) 4 = none :=
  ⟨alloc_sound _ _ _, s0_reach, by decide, by decide, by decide, by decide, rfl, rfl, by decide, by decide, by decide⟩

end Verif.Props
