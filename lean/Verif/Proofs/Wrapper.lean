import Verif.Spec.Wrapper
import Verif.Proofs.IndirectReach

/-! Wrappers that are not assigned are `indirect` objects that are never valueless. -/

set_option autoImplicit false
set_option linter.unusedSectionVars false
set_option linter.unusedSimpArgs false

namespace Verif.Wrapper
open Verif

/-- `new` and `delete` as an allocator. -/
def newDelete : ATraits Unit Unit where
  eq _ _ := true
  res a := a
  alwaysEqual := true
  pocca := false
  pocma := true
  pocs := false
  socc a := a
  dflt := ()

theorem newDelete_sound : newDelete.Sound := ⟨by simp, by simp⟩

section
variable {L V X : Type} [DecidableEq L]
variable {T : TSpec V X} {s s' : St L Unit Unit (Obj V)}

/-- The same step on `indirect`; an assignment of an object to itself does nothing. -/
def toOp : Op L → Verif.Op L Unit V X
  | .make x => .make x none .default
  | .copy x y => .copy x y
  | .move x y => .copy x y
  | .assign x _ => .valueless x
  | .destroy x => .destroy x

/-- Forget what was returned. -/
def forget {σ α : Type} : Res σ α → Res σ Unit
  | .ok _ s => .ok () s
  | .threw e s => .threw e s
  | .terminated => .terminated
  | .ub u => .ub u
  | .diverged => .diverged

/-- No object is valueless. -/
def Full (s : St L Unit Unit (Obj V)) : Prop := ∀ x h, s.hs x = some h → h.p ≠ none

theorem upd_upd {α β : Type} [DecidableEq α] (f : α → β) (a : α) (b c : β) : upd (upd f a b) a c = upd f a c := by
  funext z
  simp only [upd]
  by_cases e : z = a <;> simp [e]

theorem upd_same {α β : Type} [DecidableEq α] (f : α → β) (a : α) : upd f a (f a) = f := by
  funext z
  simp only [upd]
  by_cases e : z = a <;> simp [e]

theorem newT_eq (k : Addr → M (St L Unit Unit (Obj V)) Unit) : newT k = Indirect.constructFrom newDelete () (fun _ m => k m) := rfl

theorem make_eq (x : L) (s : St L Unit Unit (Obj V)) :
    step (plain T) (.make x) s = forget (Indirect.step newDelete (plain T) (.make x none .default) s) := by
  simp only [step, ctorDefault, newT_eq, Indirect.step, Indirect.construct, Indirect.ctorDefault, bind, M.andThen, pure,
    M.ret, newDelete]
  cases Indirect.constructFrom _ () _ s with
  | ok p s₁ =>
    simp only [emplace]
    cases s₁.hs x <;> rfl
  | _ => rfl

theorem copy_eq (F : Full s) {x y : L} (hy : Alive s y) :
    step (plain T) (.copy x y) s = forget (Indirect.step newDelete (plain T) (.copy x y) s) := by
  obtain ⟨h, hh⟩ := hy
  cases hp : h.p with
  | none => exact absurd hp (F _ _ hh)
  | some q =>
    have hk : ctorCopy (plain T) y s = Indirect.ctorCopy newDelete (plain T) y s := by
      have e1 : Indirect.ctorCopy newDelete (plain T) y s =
          (do let p ← Indirect.constructFrom newDelete () (fun a m => (plain T).copyCtor a m q)
              pure ⟨some p, ()⟩ : M (St L Unit Unit (Obj V)) (Handle Unit)) s := by
        simp [Indirect.ctorCopy, Indirect.ctorCopyA, Indirect.valueless, Indirect.deref, getH, hh, bind, M.andThen,
          pure, M.ret, hp, newDelete]
      rw [e1]
      simp only [ctorCopy, newT, Indirect.constructFrom, bind, M.andThen, newDelete]
      cases ha : (allocate () : M (St L Unit Unit (Obj V)) Addr) s with
      | ok p s₁ =>
        have h₁ : s₁.hs y = some h := by
          simp only [allocate] at ha
          split at ha
          · cases ha
          · split at ha
            · cases ha
            · cases ha; exact hh
        have h₂ : pointee y s₁ = .ok q s₁ := by
          simp [pointee, getH, h₁, bind, M.andThen, pure, M.ret, hp]
        simp only [M.onThrow, M.andThen, h₂]
      | _ => rfl
    simp only [step, Indirect.step, bind, M.andThen, pure, M.ret, hk]
    cases Indirect.ctorCopy newDelete (plain T) y s with
    | ok k s₁ =>
      simp only [emplace]
      cases s₁.hs x <;> rfl
    | _ => rfl

theorem destroy_some {x : L} {h : Handle Unit} {p : Addr} {v : V} (hh : s.hs x = some h) (hp : h.p = some p)
    (hc : s.heap p = some ⟨(), some v⟩) :
    step (plain T) (.destroy x) s = .ok () { s with
      heap := upd s.heap p none
      hs := upd s.hs x none
      trace := s.trace ++ [.destroy p, .dealloc () p] } := by
  simp [step, dtor, deleteT, M.noexceptIf, M.bind_eq, getH, hh, hp, plain, endObj, readObj, readBody, hc,
    writeBody, emit, deallocate, Body.occupied, endLife]

theorem destroy_dangling {x : L} {h : Handle Unit} {p : Addr} (hh : s.hs x = some h) (hp : h.p = some p)
    (hc : s.heap p = none) : step (plain T) (.destroy x) s = .ub .deadObject := by
  simp [step, dtor, deleteT, M.noexceptIf, M.bind_eq, getH, hh, hp, plain, endObj, readObj, readBody, hc]

theorem destroy_eq {x : L} (I : Indirect.IInv newDelete s) (hx : Alive s x) :
    step (plain T) (.destroy x) s = forget (Indirect.step newDelete (plain T) (.destroy x) s) := by
  obtain ⟨h, hh⟩ := hx
  cases hp : h.p with
  | none =>
    simp only [step, dtor, Indirect.step, Indirect.dtor, Indirect.reset, M.noexceptIf, getH, hh, hp, bind, M.andThen, pure,
      M.ret, deleteT, endLife, forget]
  | some p =>
    obtain ⟨v, hv⟩ := I.own' hh hp
    rw [destroy_some hh hp hv]
    simp [Indirect.step, Indirect.dtor, M.noexceptIf, M.bind_eq, Indirect.reset_some newDelete T hh hp hv, endLife, forget]

/-- The specification of a wrapper's step. -/
theorem call_eq (I : Indirect.IInv newDelete s) (F : Full s) {o : Op L} (e : Env) (hl : Legal s o) (ha : ¬ Assigns o) :
    call (plain T) o e s = forget (Indirect.call newDelete (plain T) (toOp o) e s) := by
  cases o with
  | make x => exact make_eq x _
  | copy x y => exact copy_eq (s := s.enter e) F hl.2
  | move x y => exact copy_eq (s := s.enter e) F hl.2
  | destroy x => exact destroy_eq (s := s.enter e) I hl
  | assign x y =>
    have he : x = y := by simpa [Assigns] using ha
    subst he
    obtain ⟨h, hh⟩ := hl.1
    have : (s.enter e).hs x = some h := hh
    simp only [call, step, assign, getH, setP, Indirect.call, Indirect.step, toOp, Indirect.valueless, bind, M.andThen,
      pure, M.ret, this, forget]
    simp only [Res.ok.injEq, true_and]
    rw [show (some { h with p := h.p } : Option (Handle Unit)) = (s.enter e).hs x from this.symm, upd_same]

theorem legal_to {o : Op L} (hl : Legal s o) : Spec.Legal newDelete (Indirect.abs s) (toOp (V := V) (X := X) o) := by
  have dead : ∀ {x : L}, ¬ Alive s x → Spec.Dead (Indirect.abs s) x := by
    intro x h
    simp only [Spec.Dead, Indirect.abs, absWith]
    cases hh : s.hs x with
    | none => rfl
    | some k => exact absurd ⟨k, hh⟩ h
  have live : ∀ {x : L}, Alive s x → Spec.Live (Indirect.abs s) x := by
    rintro x ⟨k, hh⟩
    simp only [Spec.Live, Indirect.abs, absWith, hh]
    exact ⟨_, rfl⟩
  cases o with
  | make x => exact ⟨dead hl, trivial⟩
  | copy x y => exact ⟨dead hl.1, live hl.2⟩
  | move x y => exact ⟨dead hl.1, live hl.2⟩
  | destroy x => exact live hl
  | assign x y => exact live hl.1

theorem value_eq (s : St L Unit Unit (Obj V)) (x : L) :
    value s x = (Indirect.abs s x).bind fun b => b.val := rfl

theorem full_abs (I : Indirect.IInv newDelete s) : Full s ↔ ∀ x b, Indirect.abs s x = some b → b.val ≠ none := by
  constructor
  · intro F x b hb
    obtain ⟨k, hk, _, hv⟩ := Verif.abs_some hb
    cases hp : k.p with
    | none => exact absurd hp (F _ _ hk)
    | some p =>
      obtain ⟨v, hv'⟩ := I.own' hk hp
      rw [hv, hp]
      simp [hv']
  · intro F x h hh hp
    refine F x ⟨h.alloc, none⟩ ?_ rfl
    simp [Indirect.abs, absWith, hh, hp]

theorem abs_alive {x : L} (h : Alive s x) (F : Full s) (I : Indirect.IInv newDelete s) :
    ∃ v, Indirect.abs s x = some ⟨(), some v⟩ ∧ value s x = some v := by
  obtain ⟨k, hk⟩ := h
  cases hp : k.p with
  | none => exact absurd hp (F _ _ hk)
  | some p =>
    obtain ⟨v, hv⟩ := I.own' hk hp
    have : Indirect.abs s x = some ⟨(), some v⟩ := by simp [Indirect.abs, absWith, hk, hp, hv]
    exact ⟨v, this, by rw [value_eq, this]; rfl⟩

theorem put_value (σ : Spec.Boxes L Unit V) (x : L) (v : V) :
    (fun z => (Spec.put σ x ⟨(), some v⟩ z).bind fun b => b.val) = upd (fun z => (σ z).bind fun b => b.val) x (some v) := by
  funext z
  simp only [Spec.put, upd]
  by_cases e : z = x <;> simp [e]

theorem value_fun (s : St L Unit Unit (Obj V)) : value s = fun z => (Indirect.abs s z).bind fun b => b.val := rfl

/-- The outcome is as expected, and wrappers stay proper. -/
def Good (T : TSpec V X) (mem : Bool) (n : Nat) (s : St L Unit Unit (Obj V)) (o : Op L)
    (r : Res (St L Unit Unit (Obj V)) Unit) : Prop :=
  Meets T mem n s o r ∧ match r with
    | .ok _ s' | .threw _ s' => Indirect.IInv newDelete s' ∧ Full s'
    | _ => True

theorem good_store {o : Op L} {x : L} {mem : Bool} {n : Nat} (F : Full s) (I : Indirect.IInv newDelete s)
    {r : Res (St L Unit Unit (Obj V)) (Out L Unit V)} {c : Except Exn V}
    (he : expected T mem n (value s) o = c.map fun v => upd (value s) x (some v))
    (h : Indirect.Refines newDelete r (Spec.store (Indirect.abs s) .unit x () c)) : Good T mem n s o (forget r) := by
  cases c with
  | ok v =>
    cases r <;> simp only [Spec.store, Indirect.Refines] at h
    obtain ⟨_, ha, I'⟩ := h
    refine ⟨?_, I', (full_abs I').2 ?_⟩
    · simp only [forget, Meets, he, Except.map]
      rw [value_fun, value_fun, ha, put_value]
    · intro z b hb
      rw [ha] at hb
      simp only [Spec.put] at hb
      split at hb
      · cases hb; simp
      · exact (full_abs I).1 F z b hb
  | error x =>
    cases r <;> simp only [Spec.store, Indirect.Refines] at h
    obtain ⟨rfl, ha, I'⟩ := h
    refine ⟨⟨by simp [he, Except.map], by rw [value_fun, ha]; rfl⟩, I', (full_abs I').2 ?_⟩
    rw [ha]
    exact (full_abs I).1 F

theorem call_good (I : Indirect.IInv newDelete s) (F : Full s) {o : Op L} (e : Env) (hl : Legal s o)
    (hn : ¬ Assigns o) : Good T (available s e) (e.choice 0) s o (call (plain T) o e s) := by
  rw [call_eq I F e hl hn]
  have h := Indirect.call_refines' (T := T) (e := e) newDelete_sound I (legal_to (X := X) hl)
  have hcopy : ∀ x y : L, Alive s y →
      Indirect.Refines newDelete (Indirect.call newDelete (plain T) (.copy x y) e s)
        (Spec.step newDelete T (available s e) (e.choice 0) (Indirect.abs s) (.copy x y)) →
      ∀ o : Op L, (o = .copy x y ∨ o = .move x y) →
      Good T (available s e) (e.choice 0) s o (forget (Indirect.call newDelete (plain T) (.copy x y) e s)) := by
    intro x y hy h o ho
    obtain ⟨v, ha, hv⟩ := abs_alive hy F I
    refine good_store (x := x) F I (c := Spec.build (available s e) (T.copy v (e.choice 0))) ?_ ?_
    · rcases ho with rfl | rfl <;> simp only [expected, hv, Spec.build] <;> cases available s e <;> rfl
    · simpa only [Spec.step, ha, Spec.copyA] using h
  cases o with
  | make x =>
    refine good_store (x := x) F I (c := Spec.build (available s e) (T.make .none (e.choice 0))) ?_ ?_
    · simp only [expected, Spec.build]
      cases available s e <;> rfl
    · exact h
  | copy x y => exact hcopy x y hl.2 h _ (.inl rfl)
  | move x y => exact hcopy x y hl.2 h _ (.inr rfl)
  | destroy x =>
    simp only [toOp, Spec.step] at h ⊢
    revert h
    cases Indirect.call newDelete (plain T) (.destroy x) e s <;> intro h <;> simp only [Indirect.Refines] at h
    obtain ⟨_, ha, I'⟩ := h
    refine ⟨?_, I', (full_abs I').2 ?_⟩
    · simp only [forget, Meets, expected]
      rw [value_fun, value_fun, ha]
      congr 1
      funext z
      simp only [upd, Spec.drop]
      by_cases e : z = x <;> simp [e]
    · intro z b hb
      rw [ha] at hb
      simp only [Spec.drop] at hb
      split at hb
      · cases hb
      · exact (full_abs I).1 F z b hb
  | assign x y =>
    have hxy : x = y := by simpa [Assigns] using hn
    subst hxy
    obtain ⟨v, ha, hv⟩ := abs_alive hl.1 F I
    simp only [toOp, Spec.step, ha] at h ⊢
    revert h
    cases Indirect.call newDelete (plain T) (.valueless x) e s <;> intro h <;> simp only [Indirect.Refines] at h
    obtain ⟨_, ha', I'⟩ := h
    refine ⟨?_, I', (full_abs I').2 ?_⟩
    · simp only [forget, Meets, expected, upd_same]
      rw [value_fun, value_fun, ha']
    · rw [ha']
      exact (full_abs I).1 F

theorem Reach.good (h : Reach T s) : Indirect.IInv newDelete s ∧ Full s := by
  induction h with
  | init => exact ⟨Inv.init, fun _ _ h => by simp [St.init] at h⟩
  | ret o e _ hl hn hc ih =>
    have := (call_good (T := T) ih.1 ih.2 e hl hn).2
    rw [hc] at this
    exact this
  | threw o e x _ hl hn hc ih =>
    have := (call_good (T := T) ih.1 ih.2 e hl hn).2
    rw [hc] at this
    exact this

/-- Wrapper programs without assignment are programs with `indirect`. -/
theorem Reach.indirect (h : Reach T s) : Indirect.Reach newDelete T s := by
  induction h with
  | init => exact .init
  | @ret s s' o e hr hl hn hc ih =>
    rw [call_eq hr.good.1 hr.good.2 e hl hn] at hc
    cases hi : Indirect.call newDelete (plain T) (toOp o) e s with
    | ok out s₁ =>
      rw [hi] at hc
      cases hc
      exact .ret _ e out ih (legal_to hl) hi
    | _ => rw [hi] at hc; cases hc
  | @threw s s' o e x hr hl hn hc ih =>
    rw [call_eq hr.good.1 hr.good.2 e hl hn] at hc
    cases hi : Indirect.call newDelete (plain T) (toOp o) e s with
    | threw y s₁ =>
      rw [hi] at hc
      cases hc
      exact .threw _ e x ih (legal_to hl) hi
    | _ => rw [hi] at hc; cases hc

theorem run_good {cs : List (Op L × Env)} (h : Reach T s) (hl : LegalRun T cs s) :
    ∃ log s', run T cs s = .done log s' ∧ Reach T s' := by
  induction cs generalizing s with
  | nil => exact ⟨[], s, rfl, h⟩
  | cons c cs ih =>
    simp only [run, runWith, LegalRun, LegalWith] at hl ⊢
    obtain ⟨⟨h0, hn⟩, h1⟩ := hl
    have hg := (call_good (T := T) h.good.1 h.good.2 c.2 h0 hn).1
    cases hc : call (plain T) c.1 c.2 s with
    | ok out s₁ =>
      simp only [hc] at h1 ⊢
      obtain ⟨log, s', hr, hr'⟩ := ih (.ret _ _ h h0 hn hc) h1
      simp only [run] at hr
      rw [hr]
      exact ⟨_, s', rfl, hr'⟩
    | threw x s₁ =>
      simp only [hc] at h1 ⊢
      obtain ⟨log, s', hr, hr'⟩ := ih (.threw _ _ _ h h0 hn hc) h1
      simp only [run] at hr
      rw [hr]
      exact ⟨_, s', rfl, hr'⟩
    | _ => rw [hc] at hg; exact hg.elim

end
end Verif.Wrapper
