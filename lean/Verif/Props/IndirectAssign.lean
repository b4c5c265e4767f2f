import Verif.Demo
import Verif.Proofs.IndirectEffects

/-!
# C10 - C13, C17: assignment to `indirect`

`abs s x = some ⟨a, some v⟩`: object `x` is alive with allocator `a` and value `v`; `some ⟨a, none⟩`: valueless.
-/

set_option autoImplicit false
set_option linter.unusedSectionVars false
set_option linter.unusedSimpArgs false

namespace Verif.Props
open Verif Indirect Demo

section
variable {L A R V X : Type} [DecidableEq L] [DecidableEq R]
variable {tr : ATraits A R} {T : TSpec V X} {s s' : St L A R (Obj V)} {e : Env} {x y : L} {a b : A} {d v : V}
  {out : Out L A V} {ex : Exn} {k l : Spec.Box A V}

/-! ## C10: copy assignment returns -/

/-- Source valueless: `x` gives up what it owns and becomes valueless; never throws. -/
theorem C10_from_valueless (S : tr.Sound) (h : Reach tr T s) (hxy : x ≠ y) (hx : abs s x = some k)
    (hy : abs s y = some ⟨b, none⟩) (e : Env) :
    ∃ s', call tr (plain T) (.assignCopy x y) e s = .ok (.self x) s' ∧
      Spec.Emptied tr s s' x (addr s x) k.alloc (if tr.pocca then b else k.alloc) := by
  obtain ⟨p, hk⟩ := alive hx
  refine ⟨_, assignCopy_null (s := s.enter e) (h.inv' S e) hxy hk (disengaged (h.inv S) hy) rfl, ?_⟩
  refine ⟨by simp, ?_, ?_, ?_⟩
  · intro z hz; simp [upd_other _ _ hz]; rfl
  · simp [freedHeap_eq, addr_of hk]; rfl
  · simp [freedEvents_eq, addr_of hk]; rfl

/-- Both engaged, equal allocators, `T` assignable: `*x` is assigned in place by `T`'s copy assignment; it stays where
it is. -/
theorem C10_in_place (hxy : x ≠ y) (hx : abs s x = some ⟨a, some d⟩) (hy : abs s y = some ⟨b, some v⟩)
    (hT : T.assignable = true) (hab : tr.eq a b = true)
    (hc : call tr (plain T) (.assignCopy x y) e s = .ok out s') :
    out = .self x ∧ (T.copyAssign d v (e.choice 0)).1 = none ∧ ∃ p q, addr s x = some p ∧ addr s y = some q ∧
      Spec.Assigned s s' s.heap x (if tr.pocca then b else a) p (T.copyAssign d v (e.choice 0)).2 (.copyOf q) := by
  obtain ⟨p, r, hk, hp⟩ := engaged hx
  obtain ⟨q, r', hk', hq⟩ := engaged hy
  have M := assigned_effect (s := s) (x := x) (a' := if tr.pocca then b else a)
    (assignCopy_inPlace (tr := tr) (T := T) (s := s.enter e) hxy hk rfl hp hk' rfl hq hT hab) rfl rfl hk
    (by simp) (by intro z hz; simp [upd_other _ _ hz]; rfl) rfl hp
  obtain ⟨h1, h2, h3⟩ := M.1 _ _ hc
  exact ⟨h1, h2, p, q, by simp [addr, hk], by simp [addr, hk'], h3⟩

/-- All other cases with an engaged source: `x` comes to own a copy of `*y` made by `T`'s copy constructor in new
storage of the allocator that `x` has afterwards; what `x` owned before is released after that. -/
theorem C10_copy (S : tr.Sound) (h : Reach tr T s) (hxy : x ≠ y) (hx : abs s x = some k)
    (hy : abs s y = some ⟨b, some v⟩) (hn : ¬ (T.assignable = true ∧ k.val ≠ none ∧ tr.eq k.alloc b = true))
    (hc : call tr (plain T) (.assignCopy x y) e s = .ok out s') :
    out = .self x ∧ ∃ q p w, addr s y = some q ∧ T.copy v (e.choice 0) = .ok w ∧
      Spec.Replaced tr s s' s.heap x (addr s x) k.alloc (if tr.pocca then b else k.alloc) w p (.copyOf q) := by
  obtain ⟨q, r', hk', hq⟩ := engaged hy
  obtain ⟨t, ht, hta, htv⟩ := abs_some hx
  have hcond : (T.assignable && !(t.p == none) && tr.eq t.alloc b) = false := by
    cases htp : t.p with
    | none => simp
    | some p =>
      obtain ⟨w, hw⟩ := (h.inv S).own' ht htp
      simp only [htp, hw, Option.bind_some] at htv
      rw [htv, hta] at hn
      simp at hn ⊢
      exact hn
  have hfr : t.p ≠ some (e.pick 0) ∨ available s e = false := by
    cases hav : available s e with
    | false => exact .inr rfl
    | true => exact .inl (Inv.fresh (h.inv S) (by simp [available] at hav; exact hav.2) ht)
  have M := replaced_effect (s := s) (e := e)
    (assignCopy_replace (tr := tr) (T := T) (s := s.enter e) (h.inv' S e) hxy ht hk' rfl hq hcond) rfl rfl hfr
  obtain ⟨h1, w, p, h2, h3, h4⟩ := M.1 _ _ hc
  refine ⟨h1, q, p, w, by simp [addr, hk'], h2, ?_⟩
  rw [addr_of ht, hta]
  exact h4

/-- Summary: the call returns `x`; `y` and all other objects are as before; `x` has `y`'s allocator exactly if
it propagates; `x` is valueless exactly if `y` is; and its value otherwise is what `T`'s copy assignment (both
engaged, equal allocators) or `T`'s copy constructor makes of `y`'s value. -/
theorem C10_copy_assignment (S : tr.Sound) (h : Reach tr T s) (hxy : x ≠ y) (hx : abs s x = some k)
    (hy : abs s y = some l) (hc : call tr (plain T) (.assignCopy x y) e s = .ok out s') :
    out = .self x ∧ (∀ z, z ≠ x → abs s' z = abs s z) ∧
    ∃ w, abs s' x = some ⟨if tr.pocca then l.alloc else k.alloc, w⟩ ∧ (w = none ↔ l.val = none) ∧
      ∀ v, l.val = some v →
        (∃ d, k.val = some d ∧ T.assignable = true ∧ tr.eq k.alloc l.alloc = true ∧
          T.copyAssign d v (e.choice 0) = (none, w.getD d)) ∨
        (¬ (T.assignable = true ∧ k.val ≠ none ∧ tr.eq k.alloc l.alloc = true) ∧
          ∃ w', T.copy v (e.choice 0) = .ok w' ∧ w = some w') := by
  have R := call_ok_spec (o := .assignCopy x y) S h ⟨⟨_, hx⟩, ⟨_, hy⟩⟩ hc
  simp only [Spec.step, Spec.assignCopy, hxy, if_false, hx, hy] at R
  rcases k with ⟨ka, kv⟩
  rcases l with ⟨la, lv⟩
  have key : ∀ {w : Option V} {σ : Spec.Boxes L A V},
      Spec.put (abs s) x ⟨if tr.pocca then la else ka, w⟩ = abs s' →
      (∀ z, z ≠ x → abs s' z = abs s z) ∧ abs s' x = some ⟨if tr.pocca then la else ka, w⟩ := by
    intro w _ hw
    rw [← hw]
    exact ⟨fun z hz => by simp [Spec.put, hz], by simp [Spec.put]⟩
  cases lv with
  | none =>
    simp only [Spec.Result.ret.injEq] at R
    obtain ⟨k1, k2⟩ := key (σ := abs s) R.2
    exact ⟨R.1.symm, k1, none, k2, by simp, by simp⟩
  | some v =>
    have copycase : ∀ {m : Bool}, Spec.store (abs s) (.self x) x (if tr.pocca then la else ka)
          (Spec.build m (T.copy v (e.choice 0))) = .ret out (abs s') →
        ¬ (T.assignable = true ∧ kv ≠ none ∧ tr.eq ka la = true) →
        out = .self x ∧ (∀ z, z ≠ x → abs s' z = abs s z) ∧
        ∃ w, abs s' x = some ⟨if tr.pocca then la else ka, w⟩ ∧ (w = none ↔ some v = none) ∧
          ∀ v', some v = some v' →
            (∃ d, kv = some d ∧ T.assignable = true ∧ tr.eq ka la = true ∧
              T.copyAssign d v' (e.choice 0) = (none, w.getD d)) ∨
            (¬ (T.assignable = true ∧ kv ≠ none ∧ tr.eq ka la = true) ∧
              ∃ w', T.copy v' (e.choice 0) = .ok w' ∧ w = some w') := by
      intro m R hn
      cases m <;> simp only [Spec.build, Bool.false_eq_true, if_false, if_true] at R
      · simp [Spec.store] at R
      · cases hw : T.copy v (e.choice 0) with
        | error x => rw [hw] at R; simp [Spec.store] at R
        | ok w =>
          rw [hw] at R
          simp only [Spec.store, Spec.Result.ret.injEq] at R
          obtain ⟨k1, k2⟩ := key (σ := abs s) R.2
          refine ⟨R.1.symm, k1, some w, k2, by simp, ?_⟩
          rintro v' ⟨rfl⟩
          exact .inr ⟨hn, w, hw, rfl⟩
    cases kv with
    | none => exact copycase R (by simp)
    | some d =>
      simp only at R
      split at R
      · rename_i hcond
        simp only [Bool.and_eq_true] at hcond
        rcases hca : T.copyAssign d v (e.choice 0) with ⟨o, d'⟩
        cases o with
        | some x => rw [hca] at R; simp at R
        | none =>
          rw [hca] at R
          simp only [Spec.Result.ret.injEq] at R
          obtain ⟨k1, k2⟩ := key (σ := abs s) R.2
          refine ⟨R.1.symm, k1, some d', k2, by simp, ?_⟩
          rintro v' ⟨rfl⟩
          exact .inl ⟨d, rfl, hcond.1, hcond.2, by simp [hca]⟩
      · rename_i hcond
        simp only [Bool.and_eq_true, not_and] at hcond
        exact copycase R (by rintro ⟨h1, _, h2⟩; exact hcond h1 h2)

/-! ## C11: copy assignment throws -/

/-- If `T`'s copy assignment threw (both engaged, equal allocators), `*x` is what it left behind, at the same address
and with the same allocator of `x`, and everything else is unchanged. -/
theorem C11_assignment_threw (hxy : x ≠ y) (hx : abs s x = some ⟨a, some d⟩) (hy : abs s y = some ⟨b, some v⟩)
    (hT : T.assignable = true) (hab : tr.eq a b = true)
    (hc : call tr (plain T) (.assignCopy x y) e s = .threw ex s') :
    (T.copyAssign d v (e.choice 0)).1 = some ex ∧ ∃ p q, addr s x = some p ∧ addr s y = some q ∧
      Spec.Assigned s s' s.heap x a p (T.copyAssign d v (e.choice 0)).2 (.copyOf q) := by
  obtain ⟨p, r, hk, hp⟩ := engaged hx
  obtain ⟨q, r', hk', hq⟩ := engaged hy
  have M := assigned_effect (s := s) (x := x) (a' := if tr.pocca then b else a)
    (assignCopy_inPlace (tr := tr) (T := T) (s := s.enter e) hxy hk rfl hp hk' rfl hq hT hab) rfl rfl hk
    (by simp) (by intro z hz; simp [upd_other _ _ hz]; rfl) rfl hp
  obtain ⟨h2, h3⟩ := M.2.1 _ _ hc
  exact ⟨h2, p, q, by simp [addr, hk], by simp [addr, hk'], h3⟩

/-- In all other cases nothing has changed at all: no object, no `T`, no storage. -/
theorem C11_strong (S : tr.Sound) (h : Reach tr T s) (hxy : x ≠ y) (hx : abs s x = some k)
    (hy : abs s y = some l) (hn : ¬ (T.assignable = true ∧ k.val ≠ none ∧ tr.eq k.alloc l.alloc = true))
    (hc : call tr (plain T) (.assignCopy x y) e s = .threw ex s') :
    Spec.Untouched s s' ∧ ∃ v, l.val = some v ∧ Spec.CreateFailed tr s s' e s.heap
      (if tr.pocca then l.alloc else k.alloc) (T.copy v (e.choice 0)) ex := by
  rcases l with ⟨b, lv⟩
  cases lv with
  | none =>
    obtain ⟨s'', h1, _⟩ := C10_from_valueless S h hxy hx hy e
    rw [h1] at hc; cases hc
  | some v =>
  obtain ⟨q, r', hk', hq⟩ := engaged hy
  obtain ⟨t, ht, hta, htv⟩ := abs_some hx
  have hcond : (T.assignable && !(t.p == none) && tr.eq t.alloc b) = false := by
    cases htp : t.p with
    | none => simp
    | some p =>
      obtain ⟨w, hw⟩ := (h.inv S).own' ht htp
      simp only [htp, hw, Option.bind_some] at htv
      rw [htv, hta] at hn
      simp at hn ⊢
      exact hn
  have hfr : t.p ≠ some (e.pick 0) ∨ available s e = false := by
    cases hav : available s e with
    | false => exact .inr rfl
    | true => exact .inl (Inv.fresh (h.inv S) (by simp [available] at hav; exact hav.2) ht)
  have M := replaced_effect (s := s) (e := e)
    (assignCopy_replace (tr := tr) (T := T) (s := s.enter e) (h.inv' S e) hxy ht hk' rfl hq hcond) rfl rfl hfr
  have C := M.2.1 _ _ hc
  refine ⟨?_, v, rfl, by rw [hta]; exact C⟩
  cases C with
  | noStorage _ _ h1 h2 _ => exact ⟨h1, h2⟩
  | ctorThrew p _ _ _ h1 h2 _ => exact ⟨h1, h2⟩

/-- Summary: whatever throws, every object other than `x` is as before, `x` keeps its allocator, its address and is
valueless exactly if it was, and only if `T`'s own copy assignment was called may its value differ. -/
theorem C11_copy_assignment_throws (S : tr.Sound) (h : Reach tr T s) (hxy : x ≠ y) (hx : abs s x = some k)
    (hy : abs s y = some l) (hc : call tr (plain T) (.assignCopy x y) e s = .threw ex s') :
    (∀ z, z ≠ x → abs s' z = abs s z) ∧ addr s' x = addr s x ∧
    ∃ w, abs s' x = some ⟨k.alloc, w⟩ ∧ (w = none ↔ k.val = none) ∧
      (w = k.val ∨ ∃ d v, k.val = some d ∧ l.val = some v ∧ T.copyAssign d v (e.choice 0) = (some ex, w.getD d)) := by
  by_cases hn : T.assignable = true ∧ k.val ≠ none ∧ tr.eq k.alloc l.alloc = true
  · rcases k with ⟨ka, kv⟩
    rcases l with ⟨la, lv⟩
    cases kv with
    | none => simp at hn
    | some d =>
    cases lv with
    | none =>
      obtain ⟨s'', h1, _⟩ := C10_from_valueless S h hxy hx hy e
      rw [h1] at hc; cases hc
    | some v =>
      obtain ⟨h1, p, q, hp, hq, C⟩ := C11_assignment_threw hxy hx hy hn.1 hn.2.2 hc
      obtain ⟨r, w, hw, hw'⟩ := C.value
      refine ⟨?_, by simp [addr, C.owner, hp] at hp ⊢; simp [hp], some (T.copyAssign d v (e.choice 0)).2, ?_, by simp, .inr ⟨d, v, rfl, rfl, ?_⟩⟩
      · intro z hz
        have R := call_threw_spec (o := .assignCopy x y) S h ⟨⟨_, hx⟩, ⟨_, hy⟩⟩ hc
        simp only [Spec.step, Spec.assignCopy, hxy, if_false, hx, hy, hn.1, hn.2.2, Bool.and_self, if_true] at R
        rcases hca : T.copyAssign d v (e.choice 0) with ⟨o, d'⟩
        rw [hca] at R h1
        subst h1
        simp only [Spec.Result.threw.injEq, true_and] at R
        rw [← R]; simp [Spec.put, hz]
      · simp [abs, absWith, C.owner, hw']
      · rw [← h1]; rfl
  · obtain ⟨hu, _⟩ := C11_strong S h hxy hx hy hn hc
    have : abs s' = abs s := by simp [abs, hu.1, hu.2]
    rw [this]
    exact ⟨fun _ _ => rfl, by simp [addr, hu.1], k.val, hx, Iff.rfl, .inl rfl⟩

/-! ## C12: move assignment returns -/

/-- Source valueless: `x` gives up what it owns and becomes valueless; never throws. -/
theorem C12_from_valueless (S : tr.Sound) (h : Reach tr T s) (hxy : x ≠ y) (hx : abs s x = some k)
    (hy : abs s y = some ⟨b, none⟩) (e : Env) :
    ∃ s', call tr (plain T) (.assignMove x y) e s = .ok (.self x) s' ∧
      Spec.Emptied tr s s' x (addr s x) k.alloc (if tr.pocma then b else k.alloc) := by
  obtain ⟨p, hk⟩ := alive hx
  refine ⟨_, assignMove_null (s := s.enter e) (h.inv' S e) hxy hk (disengaged (h.inv S) hy) rfl, ?_⟩
  refine ⟨by simp, ?_, ?_, ?_⟩
  · intro z hz; simp [upd_other _ _ hz]; rfl
  · simp [freedHeap_eq, addr_of hk]; rfl
  · simp [freedEvents_eq, addr_of hk]; rfl

/-- Equal allocators: `x` owns exactly `y`'s former `T`; what `x` owned is released; no `T` is constructed, copied,
moved or assigned, nothing is allocated; `y` is valueless and keeps its allocator; never throws. -/
theorem C12_equal_allocators (S : tr.Sound) (h : Reach tr T s) (hxy : x ≠ y) (hx : abs s x = some k)
    (hy : abs s y = some ⟨b, some v⟩) (hab : tr.eq k.alloc b = true) (e : Env) :
    ∃ s', call tr (plain T) (.assignMove x y) e s = .ok (.self x) s' ∧
      addr s' x = addr s y ∧ abs s' x = some ⟨if tr.pocma then b else k.alloc, some v⟩ ∧
      abs s' y = some ⟨b, none⟩ ∧ (∀ z, z ≠ x → z ≠ y → s'.hs z = s.hs z) ∧
      s'.heap = Spec.without s.heap (addr s x) ∧
      s'.trace = s.trace ++ Spec.released tr (addr s x) k.alloc := by
  obtain ⟨p, hk⟩ := alive hx
  obtain ⟨q, r, hk', hq⟩ := engaged hy
  have hpq : p ≠ some q := by
    rintro rfl
    exact hxy ((h.inv S).uniq _ _ _ _ _ hk hk' rfl rfl)
  refine ⟨_, assignMove_steal (s := s.enter e) S (h.inv' S e) hxy hk hk' rfl hab, ?_, ?_, ?_, ?_, ?_, ?_⟩
  · simp [addr, hk']
  · simp only [abs, absWith, upd_same, Option.map_some, Option.bind_some, freedHeap_eq, Spec.without, hpq,
      if_false]
    simp [St.enter, hq]
  · simp [abs, absWith, upd_other _ _ (Ne.symm hxy)]
  · intro z h1 h2; simp [upd_other _ _ h1, upd_other _ _ h2]; rfl
  · simp [freedHeap_eq, addr_of hk]; rfl
  · simp [freedEvents_eq, addr_of hk]; rfl

theorem assignMove_unequal (S : tr.Sound) (h : Reach tr T s) (hxy : x ≠ y) (hx : abs s x = some k)
    (hy : abs s y = some ⟨b, some v⟩) (hab : tr.eq k.alloc b = false) :
    ∃ q, addr s y = some q ∧
    (∀ out s', call tr (plain T) (.assignMove x y) e s = .ok out s' → out = .self x ∧ ∃ p w,
      (T.move v (e.choice 0)).1 = .ok w ∧ available s e = true ∧
        Spec.Replaced tr s s' (Spec.leftWith s.heap q (T.move v (e.choice 0)).2) x (addr s x) k.alloc
          (if tr.pocma then b else k.alloc) w p (.moveOf q)) ∧
    (∀ ex s', call tr (plain T) (.assignMove x y) e s = .threw ex s' →
      Spec.CreateFailed tr s s' e (Spec.leftWith s.heap q (T.move v (e.choice 0)).2)
        (if tr.pocma then b else k.alloc) (T.move v (e.choice 0)).1 ex) := by
  obtain ⟨q, r', hk', hq⟩ := engaged hy
  obtain ⟨t, ht, hta, htv⟩ := abs_some hx
  have hfr : t.p ≠ some (e.pick 0) ∨ available s e = false := by
    cases hav : available s e with
    | false => exact .inr rfl
    | true => exact .inl (Inv.fresh (h.inv S) (by simp [available] at hav; exact hav.2) ht)
  have E := assignMove_replace (tr := tr) (T := T) (s := s.enter e) (h.inv' S e) hxy ht hk' rfl hq
    (by rw [← hta]; exact hab)
  have M := replaced_effect (tr := tr) (s := s) (e := e) (x := x) (t := t) (a := if tr.pocma then b else t.alloc)
    (how := .moveOf q) (s₁ := leave (s.enter e) q r' (T.move v (e.choice 0)).2) (r := (T.move v (e.choice 0)).1)
    rfl rfl rfl hfr
  refine ⟨q, by simp [addr, hk'], ?_, ?_⟩
  · intro out s' hc
    obtain ⟨h1, w, p, h2, h3, h4⟩ := M.1 out s' (noexceptIf_ok_inv (E.symm.trans hc))
    refine ⟨h1, p, w, h2, h3, ?_⟩
    rw [leftWith_eq hq, addr_of ht, hta]
    exact h4
  · intro ex s' hc
    have := M.2.1 ex s' (noexceptIf_threw_inv (E.symm.trans hc))
    rw [leftWith_eq hq, hta]
    exact this

/-- Unequal allocators: `x` comes to own a `T` move-constructed from `*y` in new storage of the allocator that `x`
has afterwards; `*y` is what `T`'s move constructor left; what `x` owned before is released after that.
Missing: DRAFT.md's claim that `y` is valueless afterwards.  It is false of the code in this case, see
`C12_source_not_always_valueless`. -/
theorem C12_unequal_allocators_partial (S : tr.Sound) (h : Reach tr T s) (hxy : x ≠ y) (hx : abs s x = some k)
    (hy : abs s y = some ⟨b, some v⟩) (hab : tr.eq k.alloc b = false)
    (hc : call tr (plain T) (.assignMove x y) e s = .ok out s') :
    out = .self x ∧ (∃ q p w, addr s y = some q ∧ addr s' y = some q ∧ (T.move v (e.choice 0)).1 = .ok w ∧
      Spec.Replaced tr s s' (Spec.leftWith s.heap q (T.move v (e.choice 0)).2) x (addr s x) k.alloc
        (if tr.pocma then b else k.alloc) w p (.moveOf q) ∧
      abs s' = Spec.put (Spec.put (abs s) y ⟨b, some (T.move v (e.choice 0)).2⟩) x
        ⟨if tr.pocma then b else k.alloc, some w⟩) := by
  obtain ⟨q, hq, M, _⟩ := assignMove_unequal (T := T) (e := e) S h hxy hx hy hab
  obtain ⟨h1, p, w, h2, h3, h4⟩ := M _ _ hc
  refine ⟨h1, q, p, w, hq, ?_, h2, h4, ?_⟩
  · have := h4.others y (Ne.symm hxy)
    simp only [addr, this]; exact hq
  · have R := call_ok_spec (o := .assignMove x y) S h ⟨⟨_, hx⟩, ⟨_, hy⟩⟩ hc
    simp only [Spec.step, Spec.assignMove, hxy, if_false, hx, hy, hab, h3, if_true, h2, Spec.store,
      Spec.noexceptIf, Bool.false_eq_true] at R
    simp only [Spec.Result.ret.injEq] at R
    rw [← R.2, setVal_put hy]

/-! ## C13: move assignment throws -/

/-- The call throws only with an engaged source and unequal allocators; then no `indirect` object has changed (`x` still
owns what it owned, `y` still owns its `T`), nothing at all has changed if there was no storage, and if `T`'s move
constructor threw, `*y` is exactly what it left behind and no other `T` has changed. -/
theorem C13_move_assignment_throws_partial (S : tr.Sound) (h : Reach tr T s) (hxy : x ≠ y) (hx : abs s x = some k)
    (hy : abs s y = some l) (hc : call tr (plain T) (.assignMove x y) e s = .threw ex s') :
    tr.eq k.alloc l.alloc = false ∧ s'.hs = s.hs ∧ ∃ v q, l.val = some v ∧ addr s y = some q ∧
      Spec.CreateFailed tr s s' e (Spec.leftWith s.heap q (T.move v (e.choice 0)).2)
        (if tr.pocma then l.alloc else k.alloc) (T.move v (e.choice 0)).1 ex ∧
      abs s' = if available s e then Spec.put (abs s) y ⟨l.alloc, some (T.move v (e.choice 0)).2⟩ else abs s := by
  rcases l with ⟨b, lv⟩
  cases lv with
  | none =>
    obtain ⟨s'', h1, _⟩ := C12_from_valueless S h hxy hx hy e
    rw [h1] at hc; cases hc
  | some v =>
    cases hab : tr.eq k.alloc b with
    | true =>
      obtain ⟨s'', h1, _⟩ := C12_equal_allocators (T := T) S h hxy hx hy hab e
      rw [h1] at hc; cases hc
    | false =>
      obtain ⟨q, hq, _, M⟩ := assignMove_unequal (T := T) (e := e) S h hxy hx hy hab
      have C := M _ _ hc
      refine ⟨rfl, ?_, v, q, rfl, hq, C, ?_⟩
      · cases C with
        | noStorage _ _ h1 h2 _ => exact h1
        | ctorThrew p _ _ _ h1 h2 _ => exact h1
      · have R := call_threw_spec (o := .assignMove x y) S h ⟨⟨_, hx⟩, ⟨_, hy⟩⟩ hc
        simp only [Spec.step, Spec.assignMove, hxy, if_false, hx, hy, hab, Bool.false_eq_true] at R
        cases hav : available s e <;> simp only [hav, if_true, if_false, Bool.false_eq_true, Spec.noexceptIf] at R ⊢
        · split at R
          · cases R
          · simp only [Spec.Result.threw.injEq] at R
            exact R.2.symm
        · cases hm : (T.move v (e.choice 0)).1 with
          | ok w => rw [hm] at R; simp [Spec.store] at R
          | error x' =>
            rw [hm] at R
            simp only [Spec.store] at R
            split at R
            · cases R
            · simp only [Spec.Result.threw.injEq] at R
              rw [← R.2, setVal_put hy]

/-! ## C17: assignment from a value -/

/-- `x` engaged: `*x` is assigned in place from an argument that is not a `T`; same address, no allocation.
This is so whether the assignment returns or throws. -/
theorem C17_engaged_arg (hx : abs s x = some ⟨a, some d⟩) (u : X) (e : Env) :
    ∃ s' p, (call tr (plain T) (.assignFrom x (.arg u)) e s = (match (T.assignArg d u (e.choice 0)).1 with
        | none => .ok (.self x) s'
        | some ex => .threw ex s')) ∧ addr s x = some p ∧
      Spec.Assigned s s' s.heap x a p (T.assignArg d u (e.choice 0)).2 .args := by
  obtain ⟨p, r, hk, hp⟩ := engaged hx
  have E := assignFrom_some_arg (tr := tr) (T := T) (s := s.enter e) (u := u) hk rfl hp
  have M := assigned_effect (s := s) (x := x) E rfl rfl hk hk (by intro z hz; rfl) rfl hp
  rcases M.2.2 with ⟨o, s', hc⟩ | ⟨ex, s', hc⟩
  · obtain ⟨h1, h2, h3⟩ := M.1 _ _ hc
    change (T.assignArg d u (e.choice 0)).1 = none at h2
    exact ⟨s', p, by rw [h2]; subst h1; exact hc, by simp [addr, hk], h3⟩
  · obtain ⟨h2, h3⟩ := M.2.1 _ _ hc
    change (T.assignArg d u (e.choice 0)).1 = some ex at h2
    exact ⟨s', p, by rw [h2]; exact hc, by simp [addr, hk], h3⟩

/-- `x` engaged: `*x` is copy-assigned in place from `*y` (`y` may be `x`). -/
theorem C17_engaged_copy (hx : abs s x = some ⟨a, some d⟩) (hy : abs s y = some ⟨b, some v⟩) (e : Env) :
    ∃ s' p q, (call tr (plain T) (.assignFrom x (.lval y)) e s = (match (T.copyAssign d v (e.choice 0)).1 with
        | none => .ok (.self x) s'
        | some ex => .threw ex s')) ∧ addr s x = some p ∧ addr s y = some q ∧
      Spec.Assigned s s' s.heap x a p (T.copyAssign d v (e.choice 0)).2 (.copyOf q) := by
  obtain ⟨p, r, hk, hp⟩ := engaged hx
  obtain ⟨q, r', hk', hq⟩ := engaged hy
  have E := assignFrom_some_copy (tr := tr) (T := T) (s := s.enter e) hk rfl hp hk' rfl hq
  have M := assigned_effect (s := s) (x := x) E rfl rfl hk hk (by intro z hz; rfl) rfl hp
  rcases M.2.2 with ⟨o, s', hc⟩ | ⟨ex, s', hc⟩
  · obtain ⟨h1, h2, h3⟩ := M.1 _ _ hc
    change (T.copyAssign d v (e.choice 0)).1 = none at h2
    exact ⟨s', p, q, by rw [h2]; subst h1; exact hc, by simp [addr, hk], by simp [addr, hk'], h3⟩
  · obtain ⟨h2, h3⟩ := M.2.1 _ _ hc
    change (T.copyAssign d v (e.choice 0)).1 = some ex at h2
    exact ⟨s', p, q, by rw [h2]; exact hc, by simp [addr, hk], by simp [addr, hk'], h3⟩

/-- `x` engaged: `*x` is move-assigned in place from `*y`, which is left as `T`'s move assignment leaves it. -/
theorem C17_engaged_move (hx : abs s x = some ⟨a, some d⟩) (hy : abs s y = some ⟨b, some v⟩) (e : Env) :
    ∃ s' p q, (call tr (plain T) (.assignFrom x (.rval y)) e s = (match (T.moveAssign d v (e.choice 0)).1 with
        | none => .ok (.self x) s'
        | some ex => .threw ex s')) ∧ addr s x = some p ∧ addr s y = some q ∧
      Spec.Assigned s s' (Spec.leftWith s.heap q (T.moveAssign d v (e.choice 0)).2.2) x a p
        (T.moveAssign d v (e.choice 0)).2.1 (.moveOf q) := by
  obtain ⟨p, r, hk, hp⟩ := engaged hx
  obtain ⟨q, r', hk', hq⟩ := engaged hy
  have E := assignFrom_some_move (tr := tr) (T := T) (s := s.enter e) hk rfl hp hk' rfl hq
  have M := assigned_effect (s := s) (x := x) E rfl rfl hk hk (by intro z hz; rfl) rfl hp
  rcases M.2.2 with ⟨o, s', hc⟩ | ⟨ex, s', hc⟩
  · obtain ⟨h1, h2, h3⟩ := M.1 _ _ hc
    change (T.moveAssign d v (e.choice 0)).1 = none at h2
    exact ⟨s', p, q, by rw [h2]; subst h1; exact hc, by simp [addr, hk], by simp [addr, hk'], by rw [leftWith_eq hq]; exact h3⟩
  · obtain ⟨h2, h3⟩ := M.2.1 _ _ hc
    change (T.moveAssign d v (e.choice 0)).1 = some ex at h2
    exact ⟨s', p, q, by rw [h2]; exact hc, by simp [addr, hk], by simp [addr, hk'], by rw [leftWith_eq hq]; exact h3⟩

/-- `x` valueless: a `T` is constructed from the argument with `x`'s own allocator, which it keeps; if that fails
`x` is still valueless and nothing has changed. -/
theorem C17_valueless_arg (S : tr.Sound) (h : Reach tr T s) (hx : abs s x = some ⟨a, none⟩) (u : X) :
    (∀ out s', call tr (plain T) (.assignFrom x (.arg u)) e s = .ok out s' → out = .self x ∧ ∃ w p,
      T.make (.pack [u]) (e.choice 0) = .ok w ∧ Spec.Created tr s s' s.heap x a w p .args) ∧
    (∀ ex s', call tr (plain T) (.assignFrom x (.arg u)) e s = .threw ex s' →
      Spec.CreateFailed tr s s' e s.heap a (T.make (.pack [u]) (e.choice 0)) ex) := by
  have hk := disengaged (h.inv S) hx
  have E := assignFrom_null_arg (tr := tr) (T := T) (s := s.enter e) (u := u) hk rfl
  have M := made_effect (tr := tr) (s := s) (e := e) (x := x) E rfl rfl
  refine ⟨fun out s' hc => ?_, fun ex s' hc => M.2.1 _ _ hc⟩
  obtain ⟨h1, w, p, h2, _, h3⟩ := M.1 _ _ hc
  exact ⟨h1, w, p, h2, h3⟩

/-- `x` valueless: a `T` is copy-constructed from `*y` with `x`'s own allocator. -/
theorem C17_valueless_copy (S : tr.Sound) (h : Reach tr T s) (hx : abs s x = some ⟨a, none⟩)
    (hy : abs s y = some ⟨b, some v⟩) :
    (∀ out s', call tr (plain T) (.assignFrom x (.lval y)) e s = .ok out s' → out = .self x ∧ ∃ w p q,
      addr s y = some q ∧ T.copy v (e.choice 0) = .ok w ∧ Spec.Created tr s s' s.heap x a w p (.copyOf q)) ∧
    (∀ ex s', call tr (plain T) (.assignFrom x (.lval y)) e s = .threw ex s' →
      Spec.CreateFailed tr s s' e s.heap a (T.copy v (e.choice 0)) ex) := by
  have hk := disengaged (h.inv S) hx
  obtain ⟨q, r', hk', hq⟩ := engaged hy
  have E := assignFrom_null_copy (tr := tr) (T := T) (s := s.enter e) hk rfl hk' rfl hq
  have M := made_effect (tr := tr) (s := s) (e := e) (x := x) E rfl rfl
  refine ⟨fun out s' hc => ?_, fun ex s' hc => M.2.1 _ _ hc⟩
  obtain ⟨h1, w, p, h2, _, h3⟩ := M.1 _ _ hc
  exact ⟨h1, w, p, q, by simp [addr, hk'], h2, h3⟩

/-- `x` valueless: a `T` is move-constructed from `*y` with `x`'s own allocator; `*y` is what `T`'s move constructor
left (also if it threw). -/
theorem C17_valueless_move (S : tr.Sound) (h : Reach tr T s) (hx : abs s x = some ⟨a, none⟩)
    (hy : abs s y = some ⟨b, some v⟩) :
    ∃ q, addr s y = some q ∧
    (∀ out s', call tr (plain T) (.assignFrom x (.rval y)) e s = .ok out s' → out = .self x ∧ ∃ w p,
      (T.move v (e.choice 0)).1 = .ok w ∧
      Spec.Created tr s s' (Spec.leftWith s.heap q (T.move v (e.choice 0)).2) x a w p (.moveOf q)) ∧
    (∀ ex s', call tr (plain T) (.assignFrom x (.rval y)) e s = .threw ex s' →
      Spec.CreateFailed tr s s' e (Spec.leftWith s.heap q (T.move v (e.choice 0)).2) a (T.move v (e.choice 0)).1 ex) := by
  have hk := disengaged (h.inv S) hx
  obtain ⟨q, r', hk', hq⟩ := engaged hy
  have E := assignFrom_null_move (tr := tr) (T := T) (s := s.enter e) hk rfl hk' rfl hq
  have M := made_effect (tr := tr) (s := s) (e := e) (x := x) E rfl rfl
  refine ⟨q, by simp [addr, hk'], ?_⟩
  rw [leftWith_eq hq]
  refine ⟨fun out s' hc => ?_, fun ex s' hc => M.2.1 _ _ hc⟩
  obtain ⟨h1, w, p, h2, _, h3⟩ := M.1 _ _ hc
  exact ⟨h1, w, p, h2, h3⟩

/-- Summary: after the call returns `x` is engaged and has its old allocator; if it throws `x` still has its old
allocator and is valueless exactly if it was. -/
theorem C17_engaged_afterwards (S : tr.Sound) (h : Reach tr T s) (hx : abs s x = some k) {u : Src L X}
    (hu : Spec.LegalSrc (abs s) u) :
    (∀ out s', call tr (plain T) (.assignFrom x u) e s = .ok out s' →
      out = .self x ∧ ∃ w, abs s' x = some ⟨k.alloc, some w⟩) ∧
    (∀ ex s', call tr (plain T) (.assignFrom x u) e s = .threw ex s' →
      addr s' x = addr s x ∧ ∃ w, abs s' x = some ⟨k.alloc, w⟩ ∧ (w = none ↔ k.val = none)) := by
  rcases k with ⟨a, kv⟩
  have failed : ∀ {heap a' r ex s'}, Spec.CreateFailed tr s s' e heap a' r ex → abs s x = some ⟨a, none⟩ →
      addr s' x = addr s x ∧ ∃ w, abs s' x = some ⟨a, w⟩ ∧ (w = none ↔ (none : Option V) = none) := by
    intro heap a' r ex s' C hx
    have hk := disengaged (h.inv S) hx
    have : s'.hs = s.hs := by
      cases C with
      | noStorage _ _ h1 h2 _ => exact h1
      | ctorThrew p _ _ _ h1 h2 _ => exact h1
    exact ⟨by simp [addr, this], none, by simp [abs, absWith, this, hk], by simp⟩
  have made : ∀ {heap w p how s'}, Spec.Created tr s s' heap x a w p how → abs s' x = some ⟨a, some w⟩ := by
    intro heap w p how s' C; simp [abs, absWith, C.owner, C.value]
  have asg : ∀ {heap d p how s'}, Spec.Assigned s s' heap x a p d how → abs s' x = some ⟨a, some d⟩ := by
    intro heap d p how s' C; obtain ⟨r, w, _, h2⟩ := C.value; simp [abs, absWith, C.owner, h2]
  have asga : ∀ {heap d p how s'}, Spec.Assigned s s' heap x a p d how → addr s' x = some p := by
    intro heap d p how s' C; simp [addr, C.owner]
  have src : ∀ {y}, Spec.Engaged (abs s) y → ∃ b v, abs s y = some ⟨b, some v⟩ := by
    rintro y ⟨v, hv⟩
    simp only [Spec.valueOf] at hv
    cases hb : abs s y with
    | none => simp [hb] at hv
    | some b => rcases b with ⟨b, w⟩; simp [hb] at hv; exact ⟨b, v, by rw [hv]⟩
  cases kv with
  | none =>
    cases u with
    | arg u =>
      have M := C17_valueless_arg (T := T) (e := e) S h hx u
      exact ⟨fun out s' hc => let ⟨h1, w, p, _, h3⟩ := M.1 out s' hc; ⟨h1, w, made h3⟩,
        fun ex s' hc => failed (M.2 ex s' hc) hx⟩
    | lval y =>
      obtain ⟨b, v, hy⟩ := src hu
      have M := C17_valueless_copy (T := T) (e := e) S h hx hy
      exact ⟨fun out s' hc => let ⟨h1, w, p, _, _, _, h3⟩ := M.1 out s' hc; ⟨h1, w, made h3⟩,
        fun ex s' hc => failed (M.2 ex s' hc) hx⟩
    | rval y =>
      obtain ⟨b, v, hy⟩ := src hu
      obtain ⟨q, _, M⟩ := C17_valueless_move (T := T) (e := e) S h hx hy
      exact ⟨fun out s' hc => let ⟨h1, w, p, _, h3⟩ := M.1 out s' hc; ⟨h1, w, made h3⟩,
        fun ex s' hc => failed (M.2 ex s' hc) hx⟩
  | some d =>
    have fin : ∀ {u : Src L X} {s'' heap p d' how} {ro : Option Exn},
        call tr (plain T) (.assignFrom x u) e s = (match ro with
          | none => .ok (.self x) s''
          | some ex => .threw ex s'') → addr s x = some p → Spec.Assigned s s'' heap x a p d' how →
        (∀ out s', call tr (plain T) (.assignFrom x u) e s = .ok out s' →
          out = .self x ∧ ∃ w, abs s' x = some ⟨a, some w⟩) ∧
        (∀ ex s', call tr (plain T) (.assignFrom x u) e s = .threw ex s' →
          addr s' x = addr s x ∧ ∃ w, abs s' x = some ⟨a, w⟩ ∧ (w = none ↔ some d = none)) := by
      intro u s'' heap p d' how ro hc hp C
      rw [hc]
      cases ro with
      | none => exact ⟨by rintro _ _ ⟨⟩; exact ⟨rfl, _, asg C⟩, by rintro _ _ ⟨⟩⟩
      | some ex => exact ⟨by rintro _ _ ⟨⟩, by rintro _ _ ⟨⟩; exact ⟨by rw [asga C, hp], _, asg C, by simp⟩⟩
    cases u with
    | arg u =>
      obtain ⟨s'', p, hc, hp, C⟩ := C17_engaged_arg (tr := tr) (T := T) hx u e
      exact fin hc hp C
    | lval y =>
      obtain ⟨b, v, hy⟩ := src hu
      obtain ⟨s'', p, q, hc, hp, _, C⟩ := C17_engaged_copy (tr := tr) (T := T) hx hy e
      exact fin hc hp C
    | rval y =>
      obtain ⟨b, v, hy⟩ := src hu
      obtain ⟨s'', p, q, hc, hp, _, C⟩ := C17_engaged_move (tr := tr) (T := T) hx hy e
      exact fin hc hp C

end

/-! ### Instances -/

/-- The hypotheses of the theorems above hold of `s0`. -/
example : (alloc false false false).Sound ∧ Reach (alloc false false false) T s0 ∧
    abs s0 1 = some ⟨5, some 7⟩ ∧ abs s0 2 = some ⟨5, some 8⟩ ∧ abs s0 3 = some ⟨6, some 9⟩ ∧
    abs s0 4 = some ⟨6, none⟩ ∧ T.assignable = true ∧ (alloc false false false).eq 5 5 = true ∧
    (alloc false false false).eq 5 6 = false :=
  ⟨alloc_sound _ _ _, s0_reach, by decide, by decide, by decide, by decide, rfl, rfl, rfl⟩

/-- Every kind of outcome occurs. -/
example : let c := fun o e => outcome (call (alloc false false false) (plain T) o e s0)
    c (.assignCopy 1 2) full = 0 ∧ c (.assignCopy 1 2) (bad 200) = 1 ∧
    c (.assignCopy 1 3) (fine 200) = 0 ∧ c (.assignCopy 1 3) full = 1 ∧ c (.assignCopy 1 3) (bad 200) = 1 ∧
    c (.assignMove 1 2) full = 0 ∧ c (.assignMove 1 3) (fine 200) = 0 ∧ c (.assignMove 1 3) full = 1 ∧
    c (.assignMove 1 3) (bad 200) = 1 ∧ c (.assignFrom 1 (.arg 17)) full = 0 ∧
    c (.assignFrom 1 (.arg 17)) (bad 200) = 1 ∧ c (.assignFrom 4 (.arg 17)) full = 1 ∧
    c (.assignFrom 4 (.rval 1)) (fine 200) = 0 ∧ c (.assignFrom 4 (.lval 1)) (bad 200) = 1 := by decide

/-- C12: DRAFT.md's postcondition "`other` is valueless" is false of the code: object 3 still owns a `T` after
`1 = std::move(3)` with different allocators. -/
theorem C12_source_not_always_valueless :
    ∃ s', call (alloc false false false) (plain T) (.assignMove 1 3) (fine 200) s0 = .ok (.self 1) s' ∧
      abs s' 1 = some ⟨5, some 9⟩ ∧ abs s' 3 = some ⟨6, some 0⟩ := by
  refine ⟨stateAfter s0 (call (alloc false false false) (plain T) (.assignMove 1 3) (fine 200) s0),
    rfl, ?_, ?_⟩ <;> decide

/-- C13: DRAFT.md's "if an exception is thrown there are no effects" is false of the code: `T`'s throwing move
constructor has changed `*3` from 9 to 99. -/
theorem C13_effects_despite_exception :
    ∃ s', call (alloc false false false) (plain T) (.assignMove 1 3) (bad 200) s0 = .threw (.user 13) s' ∧
      abs s' 1 = abs s0 1 ∧ abs s0 3 = some ⟨6, some 9⟩ ∧ abs s' 3 = some ⟨6, some 99⟩ := by
  refine ⟨stateAfter s0 (call (alloc false false false) (plain T) (.assignMove 1 3) (bad 200) s0),
    rfl, ?_, ?_, ?_⟩ <;> decide

end Verif.Props
