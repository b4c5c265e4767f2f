import Verif.Proofs.TraceFacts
import Verif.Proofs.Composite
import Verif.Proofs.PolyTransfer
import Verif.Proofs.Indirect14

/-! `indirect` and `polymorphic` behave as members should. -/

set_option autoImplicit false
set_option linter.unusedSectionVars false
set_option linter.unusedSimpArgs false

namespace Verif.Composite
open Verif Spec

section
variable {L A R V X : Type} [DecidableEq L] [DecidableEq R]
variable {tr : ATraits A R}

/-- The states in which `indirect` objects keep their promises. -/
def IOk (tr : ATraits A R) (s : St L A R (Obj V)) : Prop := Indirect.IInv tr s ∧ TraceOk s

/-- How a call ends on the specification. -/
def SEnds (r : Result L A V) (Q E : Boxes L A V → Prop) (D : Prop) : Prop :=
  match r with
  | .ret _ σ => Q σ
  | .threw _ σ => E σ
  | .terminated => D
  | .illegal => False

theorem ofCall_ends {T : TSpec V X} (o : Op L A V X) {e : Env} {s : St L A R (Obj V)} {Q E : Boxes L A V → Prop} {D : Prop}
    (S : tr.Sound) (hs : IOk tr s) (hl : Legal tr (Indirect.abs s) o)
    (h : ∀ m n, SEnds (step tr T m n (Indirect.abs s) o) Q E D) :
    Ends (Holder.ofCall (Indirect.call tr (plain T) o e) s) (fun s' => IOk tr s' ∧ Q (Indirect.abs s'))
      (fun s' => IOk tr s' ∧ E (Indirect.abs s')) D := by
  have h1 := Indirect.call_refines' (T := T) (e := e) S hs.1 hl
  have h2 := Indirect.traceOk_call tr T o e _ hs.2
  have h3 := h (available s e) (e.choice 0)
  revert h1 h3
  generalize step tr T (available s e) (e.choice 0) (Indirect.abs s) o = r
  intro h1 h3
  unfold Holder.ofCall
  cases hc : Indirect.call tr (plain T) o e s with
  | ok out s' =>
    rw [hc] at h1 h2
    cases r <;> simp only [Indirect.Refines] at h1
    obtain ⟨_, rfl, I⟩ := h1
    exact ⟨⟨I, h2⟩, h3⟩
  | threw x s' =>
    rw [hc] at h1 h2
    cases r <;> simp only [Indirect.Refines] at h1
    obtain ⟨_, rfl, I⟩ := h1
    exact ⟨⟨I, h2⟩, h3⟩
  | terminated =>
    rw [hc] at h1
    cases r <;> simp only [Indirect.Refines] at h1
    exact h3
  | ub u => rw [hc] at h1; cases r <;> simp [Indirect.Refines] at h1
  | diverged => rw [hc] at h1; cases r <;> simp [Indirect.Refines] at h1

theorem indirect_behaves (S : tr.Sound) (Rf : tr.Reflexive) (T : TSpec V X) :
    Behaves tr T Indirect.abs (IOk tr) (Holder.indirect (L := L) tr T) where
  make := by
    intro s x i e hs hd
    refine ofCall_ends (.make x i.1 (Holder.ctorOf i.2)) (Q := fun σ => ∃ a v, σ = put (Indirect.abs s) x ⟨a, some v⟩) (E := fun σ => σ = Indirect.abs s)
      S hs ⟨hd, ?_⟩ fun m n => ?_
    · cases i.2 <;> trivial
    · have : (buildCtor T m n (Indirect.abs s) (Holder.ctorOf (L := L) i.2)).2 = Indirect.abs s := by
        cases i.2 <;> rfl
      simp only [step, this]
      cases (buildCtor T m n (Indirect.abs s) (Holder.ctorOf (L := L) i.2)).1 with
      | ok v => exact ⟨_, v, rfl⟩
      | error e => rfl
  copy := by
    intro s x y b e hs hd hy
    refine ofCall_ends (.copy x y) (Q := fun σ => ∃ b', CopyOf tr T b b' ∧ σ = put (Indirect.abs s) x b') (E := fun σ => σ = Indirect.abs s)
      S hs ⟨hd, b, hy⟩ fun m n => ?_
    simp only [step, hy, copyA]
    obtain ⟨a, val⟩ := b
    cases val with
    | none => exact ⟨_, ⟨rfl, rfl⟩, rfl⟩
    | some v =>
      simp only [Spec.build]
      cases m
      · rfl
      · simp only [if_true]
        cases hc : T.copy v n with
        | ok w => exact ⟨_, ⟨rfl, n, w, hc, rfl⟩, rfl⟩
        | error e => rfl
  move := by
    intro s x y b e hs hd hy
    refine (ofCall_ends (.move x y) (Q := fun σ => σ = put (put (Indirect.abs s) y ⟨b.alloc, none⟩) x b) (E := fun σ => False) (D := False)
      S hs ⟨hd, b, hy⟩ fun m n => ?_).mono (fun _ h => h) (fun _ h => h.2) (fun h => h)
    simp [SEnds, step, hy, moveA, Rf.eq_refl, noexceptIf]
  assignSelf := by
    intro s x b e hs hx
    constructor
    · refine (ofCall_ends (.assignCopy x x) (Q := fun σ => σ = Indirect.abs s) (E := fun σ => False) (D := False)
        S hs ⟨⟨b, hx⟩, b, hx⟩ fun m n => ?_).mono (fun _ h => h) (fun _ h => h.2) (fun h => h)
      simp [SEnds, step, Spec.assignCopy]
    · refine (ofCall_ends (.assignMove x x) (Q := fun σ => σ = Indirect.abs s) (E := fun σ => False) (D := False)
        S hs ⟨⟨b, hx⟩, b, hx⟩ fun m n => ?_).mono (fun _ h => h) (fun _ h => h.2) (fun h => h)
      simp [SEnds, step, Spec.assignMove]
  assignCopy := by
    intro s x y a b e hs hne hx hy
    refine ofCall_ends (.assignCopy x y) (Q := fun σ => ∃ a', AssignedCopy tr T a b a' ∧ σ = put (Indirect.abs s) x a')
      (E := fun σ => ∃ a', a'.alloc = a.alloc ∧ (a'.val.isSome = a.val.isSome) ∧ σ = put (Indirect.abs s) x a')
      S hs ⟨⟨a, hx⟩, b, hy⟩ fun m n => ?_
    have same : Indirect.abs s = put (Indirect.abs s) x a := by
      funext z; simp only [put]; split
      · rename_i h; rw [h, hx]
      · rfl
    have sto : ∀ v, b.val = some v → SEnds (store (Indirect.abs s) (Out.self x) x (if tr.pocca then b.alloc else a.alloc)
        (Spec.build m (T.copy v n))) (fun σ => ∃ a', AssignedCopy tr T a b a' ∧ σ = put (Indirect.abs s) x a')
      (fun σ => ∃ a', a'.alloc = a.alloc ∧ (a'.val.isSome = a.val.isSome) ∧ σ = put (Indirect.abs s) x a') False := by
      intro v hv
      simp only [Spec.build]
      cases m
      · exact ⟨a, rfl, rfl, same⟩
      · simp only [if_true]
        cases hc : T.copy v n with
        | ok w => exact ⟨_, ⟨rfl, by simp only [hv]; exact ⟨w, .inl ⟨n, hc⟩, rfl⟩⟩, rfl⟩
        | error e => exact ⟨a, rfl, rfl, same⟩
    obtain ⟨aa, av⟩ := a
    obtain ⟨ba, bv⟩ := b
    simp only [step, Spec.assignCopy, hx, hy, hne, if_false]
    cases bv with
    | none => exact ⟨⟨if tr.pocca then ba else aa, none⟩, ⟨rfl, rfl⟩, rfl⟩
    | some v =>
      cases av with
      | none => exact sto v rfl
      | some d =>
        simp only
        split
        · cases hc : T.copyAssign d v n with
          | mk r d' =>
            cases r with
            | none => exact ⟨⟨_, some d'⟩, ⟨rfl, d', .inr ⟨d, n, hc⟩, rfl⟩, rfl⟩
            | some e => exact ⟨⟨aa, some d'⟩, rfl, rfl, rfl⟩
        · exact sto v rfl
  assignMove := by
    intro s x y a b e hs hne hx hy
    have hyx : y ≠ x := fun h => hne h.symm
    have same : put (Indirect.abs s) y b = Indirect.abs s := by
      funext z; simp only [put]; split
      · rename_i h; rw [h, hy]
      · rfl
    have sv : ∀ w, setVal (Indirect.abs s) y (some w) = put (Indirect.abs s) y ⟨b.alloc, some w⟩ := by
      intro w; funext z; simp only [setVal, put, hy]; split <;> rfl
    refine (ofCall_ends (.assignMove x y) (Q := fun σ => ∃ a' b', AssignedMove tr T a b a' b' ∧ σ = put (put (Indirect.abs s) y b') x a')
      (E := fun σ => tr.eq a.alloc b.alloc = false ∧ ∃ b', b'.alloc = b.alloc ∧ (b'.val.isSome = b.val.isSome) ∧
        σ = put (Indirect.abs s) y b')
      (D := tr.eq a.alloc b.alloc = false ∧ (tr.pocma || tr.alwaysEqual) = true)
      S hs ⟨⟨a, hx⟩, b, hy⟩ fun m n => ?_)
    obtain ⟨aa, av⟩ := a
    obtain ⟨ba, bv⟩ := b
    simp only [step, Spec.assignMove, hx, hy, hne, if_false]
    cases bv with
    | none =>
      refine ⟨⟨if tr.pocma then ba else aa, none⟩, ⟨ba, none⟩, ⟨rfl, rfl, fun _ => ⟨rfl, rfl⟩, fun _ => ⟨rfl, rfl⟩⟩, ?_⟩
      rw [same]
    | some v =>
      simp only
      by_cases hq : tr.eq aa ba = true
      · simp only [hq, if_true]
        exact ⟨⟨_, some v⟩, ⟨ba, none⟩, ⟨rfl, rfl, fun _ => ⟨rfl, rfl⟩, by simp [hq]⟩, rfl⟩
      · rw [if_neg hq]
        have hq' : tr.eq aa ba = false := by simpa using hq
        cases m with
        | false =>
          simp only [Bool.false_eq_true, if_false, noexceptIf]
          split
          · rename_i h
            exact ⟨by simp [hq'], h⟩
          · exact ⟨by simp [hq'], ⟨ba, some v⟩, rfl, rfl, same.symm⟩
        | true =>
          simp only [if_true]
          cases hm : T.move v n with
          | mk r v' =>
            cases r with
            | ok w =>
              refine ⟨⟨if tr.pocma then ba else aa, some w⟩, ⟨ba, some v'⟩,
                ⟨rfl, rfl, by simp [hq], fun _ => ⟨w, v', n, hm, rfl, rfl⟩⟩, ?_⟩
              rw [sv]
            | error x =>
              simp only [store, noexceptIf]
              split
              · rename_i h
                exact ⟨by simp [hq'], h⟩
              · exact ⟨by simp [hq'], ⟨ba, some v'⟩, rfl, rfl, sv _⟩
  destroy := by
    intro s x b e hs hx
    refine (ofCall_ends (.destroy x) (Q := fun σ => σ = drop (Indirect.abs s) x) (E := fun σ => False) (D := False)
      S hs ⟨b, hx⟩ fun m n => ?_).mono (fun _ h => h) (fun _ h => h.2) (fun h => h)
    simp [SEnds, step]
  modify := by
    intro s x a v f e hs hx
    refine (ofCall_ends (.modify x f) (Q := fun σ => σ = put (Indirect.abs s) x ⟨a, some (f v)⟩) (E := fun σ => False) (D := False)
      S hs ⟨v, by simp [valueOf, hx]⟩ fun m n => ?_).mono (fun _ h => h) (fun _ h => h.2) (fun h => h)
    simp only [step, valueOf, hx]
    show setVal _ _ _ = _
    funext z; simp [setVal, put, hx]

theorem indirect14_holder (T : TSpec V X) : (Holder.indirect14 tr T : Holder L _ _ _ _) = Holder.indirect tr T.cxx14 := by
  have : ∀ (o : Op L A V X) (e : Env), Indirect14.call (R := R) tr (plain T) o e = Indirect.call tr (plain T.cxx14) o e :=
    fun o e => funext fun s => Indirect14.call_eq tr T o e s
  simp only [Holder.indirect14, Holder.indirect, this]

theorem indirect14_behaves (S : tr.Sound) (Rf : tr.Reflexive) (T : TSpec V X) :
    Behaves tr T.cxx14 Indirect.abs (IOk tr) (Holder.indirect14 (L := L) tr T) := by
  rw [indirect14_holder]; exact indirect_behaves S Rf T.cxx14

end

section
variable {L A R Ty V X : Type} [DecidableEq L] [DecidableEq R] [DecidableEq Ty]
variable {tr : ATraits A R}

/-- The states in which `polymorphic` objects keep their promises. -/
def POk (tr : ATraits A R) (s : St L A R (PBody Ty V)) : Prop := Polymorphic.Good s ∧ IOk tr (Polymorphic.view s)

theorem ofCall_view {P : PSpec Ty V X} (o : POp L A Ty V X) {e : Env} {s : St L A R (PBody Ty V)}
    {Q E : Boxes L A (Ty × V) → Prop} {D : Prop} (hs : POk tr s) (hl : PLegal tr (Polymorphic.abs s) o)
    (h : Ends (Holder.ofCall (Indirect.call tr (plain P.owned) (Polymorphic.toOp o) e) (Polymorphic.view s))
      (fun s' => IOk tr s' ∧ Q (Indirect.abs s')) (fun s' => IOk tr s' ∧ E (Indirect.abs s')) D) :
    Ends (Holder.ofCall (Polymorphic.call tr (plainP P) o e) s) (fun s' => POk tr s' ∧ Q (Polymorphic.abs s'))
      (fun s' => POk tr s' ∧ E (Polymorphic.abs s')) D := by
  have := Polymorphic.call_sim (P := P) hs.1 hs.2.1 o e hl
  unfold Holder.ofCall at h ⊢
  cases hc : Polymorphic.call tr (plainP P) o e s with
  | ok out s' =>
    rw [hc] at this
    rw [this.2] at h
    exact ⟨⟨this.1, h.1⟩, by rw [← Polymorphic.abs_view]; exact h.2⟩
  | threw x s' =>
    rw [hc] at this
    rw [this.2] at h
    exact ⟨⟨this.1, h.1⟩, by rw [← Polymorphic.abs_view]; exact h.2⟩
  | terminated =>
    rw [hc] at this
    rw [show Indirect.call tr (plain P.owned) (Polymorphic.toOp o) e (Polymorphic.view s) = .terminated from this] at h
    exact h
  | ub u =>
    rw [hc] at this
    obtain ⟨_, this⟩ := this
    rw [this] at h
    exact h
  | diverged =>
    rw [hc] at this
    rw [show Indirect.call tr (plain P.owned) (Polymorphic.toOp o) e (Polymorphic.view s) = .diverged from this] at h
    exact h

theorem polymorphic_behaves (S : tr.Sound) (Rf : tr.Reflexive) (P : PSpec Ty V X) :
    Behaves tr P.owned Polymorphic.abs (POk tr) (Holder.polymorphic (L := L) tr P) where
  make := by
    intro s x i e hs hd
    refine ofCall_view (Q := fun σ => ∃ a v, σ = put (Polymorphic.abs s) x ⟨a, some v⟩)
      (E := fun σ => σ = Polymorphic.abs s) (.make x i.1 (Holder.pctorOf i.2.1 i.2.2)) hs ⟨hd, ?_⟩ ?_
    · rcases i.2 with ⟨ty, xs⟩
      cases ty <;> cases xs <;> trivial
    · rw [← Polymorphic.abs_view] at hd ⊢
      refine ofCall_ends (Q := fun σ => ∃ a v, σ = put (Indirect.abs (Polymorphic.view s)) x ⟨a, some v⟩)
        (E := fun σ => σ = Indirect.abs (Polymorphic.view s))
        (.make x i.1 (Polymorphic.toCtor (Holder.pctorOf i.2.1 i.2.2))) S hs.2 ⟨hd, ?_⟩ fun m n => ?_
      · rcases i.2 with ⟨ty, xs⟩
        cases ty <;> cases xs <;> trivial
      · have : (buildCtor P.owned m n (Indirect.abs (Polymorphic.view s))
            (Polymorphic.toCtor (L := L) (Holder.pctorOf i.2.1 i.2.2))).2 = Indirect.abs (Polymorphic.view s) := by
          rcases i.2 with ⟨ty, xs⟩
          cases ty <;> cases xs <;> rfl
        simp only [step, Polymorphic.toOp, this]
        cases (buildCtor P.owned m n (Indirect.abs (Polymorphic.view s))
            (Polymorphic.toCtor (L := L) (Holder.pctorOf i.2.1 i.2.2))).1 with
        | ok v => exact ⟨_, v, rfl⟩
        | error e => rfl
  copy := by
    intro s x y b e hs hd hy
    have := (indirect_behaves (L := L) S Rf P.owned).copy (s := Polymorphic.view s) (x := x) (y := y) (b := b) e hs.2
      (by rw [Polymorphic.abs_view]; exact hd) (by rw [Polymorphic.abs_view]; exact hy)
    rw [Polymorphic.abs_view] at this
    exact ofCall_view (Q := fun σ => ∃ b', CopyOf tr P.owned b b' ∧ σ = put (Polymorphic.abs s) x b')
      (E := fun σ => σ = Polymorphic.abs s) (.copy x y) hs ⟨hd, b, hy⟩ this
  move := by
    intro s x y b e hs hd hy
    have := (indirect_behaves (L := L) S Rf P.owned).move (s := Polymorphic.view s) (x := x) (y := y) (b := b) e hs.2
      (by rw [Polymorphic.abs_view]; exact hd) (by rw [Polymorphic.abs_view]; exact hy)
    rw [Polymorphic.abs_view] at this
    exact (ofCall_view (Q := fun σ => σ = put (put (Polymorphic.abs s) y ⟨b.alloc, none⟩) x b) (E := fun _ => False)
      (.move x y) hs ⟨hd, b, hy⟩ (this.mono (fun _ h => h) (fun _ h => h.elim) (fun h => h))).mono
        (fun _ h => h) (fun _ h => h.2) (fun h => h)
  assignSelf := by
    intro s x b e hs hx
    have := (indirect_behaves (L := L) S Rf P.owned).assignSelf (s := Polymorphic.view s) (x := x) (b := b) e hs.2
      (by rw [Polymorphic.abs_view]; exact hx)
    rw [Polymorphic.abs_view] at this
    exact ⟨(ofCall_view (Q := fun σ => σ = Polymorphic.abs s) (E := fun _ => False)
      (.assignCopy x x) hs ⟨⟨b, hx⟩, b, hx⟩ (this.1.mono (fun _ h => h) (fun _ h => h.elim) (fun h => h))).mono
        (fun _ h => h) (fun _ h => h.2) (fun h => h),
      (ofCall_view (Q := fun σ => σ = Polymorphic.abs s) (E := fun _ => False)
      (.assignMove x x) hs ⟨⟨b, hx⟩, b, hx⟩ (this.2.mono (fun _ h => h) (fun _ h => h.elim) (fun h => h))).mono
        (fun _ h => h) (fun _ h => h.2) (fun h => h)⟩
  assignCopy := by
    intro s x y a b e hs hne hx hy
    have := (indirect_behaves (L := L) S Rf P.owned).assignCopy (s := Polymorphic.view s) (x := x) (y := y) (a := a) (b := b) e hs.2 hne
      (by rw [Polymorphic.abs_view]; exact hx) (by rw [Polymorphic.abs_view]; exact hy)
    rw [Polymorphic.abs_view] at this
    exact ofCall_view (Q := fun σ => ∃ a', AssignedCopy tr P.owned a b a' ∧ σ = put (Polymorphic.abs s) x a')
      (E := fun σ => ∃ a' : Box A (Ty × V), a'.alloc = a.alloc ∧ (a'.val.isSome = a.val.isSome) ∧ σ = put (Polymorphic.abs s) x a')
      (.assignCopy x y) hs ⟨⟨a, hx⟩, b, hy⟩ this
  assignMove := by
    intro s x y a b e hs hne hx hy
    have := (indirect_behaves (L := L) S Rf P.owned).assignMove (s := Polymorphic.view s) (x := x) (y := y) (a := a) (b := b) e hs.2 hne
      (by rw [Polymorphic.abs_view]; exact hx) (by rw [Polymorphic.abs_view]; exact hy)
    rw [Polymorphic.abs_view] at this
    exact ofCall_view
      (Q := fun σ => ∃ a' b', AssignedMove tr P.owned a b a' b' ∧ σ = put (put (Polymorphic.abs s) y b') x a')
      (E := fun σ => tr.eq a.alloc b.alloc = false ∧ ∃ b' : Box A (Ty × V), b'.alloc = b.alloc ∧ (b'.val.isSome = b.val.isSome) ∧
        σ = put (Polymorphic.abs s) y b')
      (.assignMove x y) hs ⟨⟨a, hx⟩, b, hy⟩ this
  destroy := by
    intro s x b e hs hx
    have := (indirect_behaves (L := L) S Rf P.owned).destroy (s := Polymorphic.view s) (x := x) (b := b) e hs.2
      (by rw [Polymorphic.abs_view]; exact hx)
    rw [Polymorphic.abs_view] at this
    exact (ofCall_view (Q := fun σ => σ = drop (Polymorphic.abs s) x) (E := fun _ => False)
      (.destroy x) hs ⟨b, hx⟩ (this.mono (fun _ h => h) (fun _ h => h.elim) (fun h => h))).mono
        (fun _ h => h) (fun _ h => h.2) (fun h => h)
  modify := by
    intro s x a v f e hs hx
    have := (indirect_behaves (L := L) S Rf P.owned).modify (s := Polymorphic.view s) (x := x) (a := a) (v := v)
      (fun w => (w.1, f w.1 w.2)) e hs.2 (by rw [Polymorphic.abs_view]; exact hx)
    rw [Polymorphic.abs_view] at this
    exact (ofCall_view (Q := fun σ => σ = put (Polymorphic.abs s) x ⟨a, some (v.1, f v.1 v.2)⟩) (E := fun _ => False)
      (.modify x f) hs ⟨v, by simp [valueOf, hx]⟩ (this.mono (fun _ h => h) (fun _ h => h.elim) (fun h => h))).mono
        (fun _ h => h) (fun _ h => h.2) (fun h => h)

end
section
variable {C A R V Ty : Type} [DecidableEq C] [DecidableEq R] [DecidableEq Ty] {tr : ATraits A R}

theorem iok_owned {L : Type} [DecidableEq L] {s : St L A R (Obj V)} (h : IOk tr s) (p : Addr) :
    (∃ c, s.heap p = some c) ↔ ∃ l, addr s l = some p := by
  constructor
  · rintro ⟨c, hc⟩
    obtain ⟨l, k, hk, hp⟩ := h.1.owned p c hc
    exact ⟨l, by simp [addr, hk, hp]⟩
  · rintro ⟨l, hl⟩
    obtain ⟨k, hk, hp⟩ := Indirect.addr_some hl
    obtain ⟨v, hv⟩ := h.1.own' hk hp
    exact ⟨_, hv⟩

theorem iok_no_leak {L : Type} [DecidableEq L] {s : St L A R (Obj V)} (h : IOk tr s) (hd : ∀ l, Indirect.abs s l = none)
    (p : Addr) : s.heap p = none ∧ Spec.allocsAt p s.trace = Spec.deallocsAt p s.trace ∧
      Spec.constructsAt p s.trace = Spec.destroysAt p s.trace := by
  have hn : s.heap p = none := by
    cases hh : s.heap p with
    | none => rfl
    | some c =>
      obtain ⟨l, hl⟩ := (iok_owned h p).1 ⟨c, hh⟩
      simp [addr, Indirect.abs_dead (hd l)] at hl
  refine ⟨hn, ?_⟩
  have := replay_counts h.2 p
  simpa [shape, hn, Spec.liveAt] using this

theorem iok_init : IOk tr (St.init : St (C × Nat) A R (Obj V)) := ⟨Inv.init, rfl⟩

theorem pok_init : POk tr (St.init : St (C × Nat) A R (PBody Ty V)) := ⟨Polymorphic.good_init, iok_init⟩

end

end Verif.Composite
