import Verif.Spec.Members
import Verif.Proofs.Wrapper

/-! Objects of UniquePtrMember and VariantWrapperMember: the steps are steps of wrappers. -/

set_option autoImplicit false
set_option linter.unusedSectionVars false
set_option linter.unusedSimpArgs false

namespace Verif.Members

namespace UniquePtr
open Wrapper (newDelete newDelete_sound forget Full full_abs value_fun upd_upd)
section
variable {L V X : Type} [DecidableEq L]
variable {T : TSpec V X} {s s' : St L Unit Unit (Obj V)}

/-- The same step on wrappers (there is no swap). -/
def toW : Op L → Wrapper.Op L
  | .make x => .make x
  | .copy x y => .copy x y
  | .move x y => .move x y
  | .swap x _ => .assign x x
  | .destroy x => .destroy x

/-- The step is not a swap. -/
def NoSwap : Op L → Prop
  | .swap _ _ => False
  | _ => True

theorem dtor_eq (T : TOps (St L Unit Unit (Obj V)) Unit X) (x : L) : dtor T x = Wrapper.dtor T x := by
  have : ∀ s, dtor T x s = Wrapper.dtor T x s := by
    intro s
    simp only [dtor, Wrapper.dtor, M.noexceptIf, M.bind_eq, getH]
    cases s.hs x with
    | none => rfl
    | some h => cases h with | mk p a => 
      cases p with
      | none => rfl
      | some p =>
        simp only [Wrapper.deleteT, M.bind_eq]
        cases T.dtor () p s with
        | ok _ s₁ => simp only []
        | _ => rfl
  exact funext this

theorem call_eq {o : Op L} (h : NoSwap o) (e : Env) : call (plain T) o e s = Wrapper.call (plain T) (toW o) e s := by
  cases o with
  | swap x y => exact h.elim
  | destroy x => simp only [call, step, dtor_eq]; rfl
  | _ => rfl

theorem legal_toW {o : Op L} (hl : Legal s o) : Wrapper.Legal s (toW o) := by
  cases o with
  | swap x y => exact ⟨hl.1, hl.1⟩
  | _ => exact hl

theorem noassign (o : Op L) : ¬ Wrapper.Assigns (toW o) := by cases o <;> simp [Wrapper.Assigns, toW]

theorem swap_eq (x y : L) (e : Env) :
    call (plain T) (.swap x y) e s = forget (Indirect.call newDelete (plain T) (.swap x y) e s) := by
  simp only [call, step, swap, Indirect.call, Indirect.step, Indirect.swap, M.noexceptIf, M.bind_eq, M.pure_eq, newDelete]
  cases h1 : getH x (s.enter e) with
  | ok t s₁ =>
    simp only []
    cases h2 : getH y s₁ with
    | ok o s₂ =>
      simp only [M.bind_eq, Bool.false_eq_true, if_false, if_true]
      cases h3 : setP x o.p s₂ with
      | ok _ s₃ =>
        simp only []
        cases h4 : setP y t.p s₃ <;> rfl
      | _ => rfl
    | _ => rfl
  | _ => rfl

theorem live {x : L} (h : Wrapper.Alive s x) : ∃ k, s.hs x = some k ∧
    Indirect.abs s x = some ⟨(), k.p.bind fun p => (s.heap p).bind (·.body)⟩ := by
  obtain ⟨k, hk⟩ := h
  exact ⟨k, hk, by simp [Indirect.abs, absWith, hk]⟩

/-- The legality of a swap. -/
theorem legal_swap {x y : L} (hl : Legal s (.swap x y)) :
    Spec.Legal newDelete (Indirect.abs s) (.swap x y : Verif.Op L Unit V X) := by
  obtain ⟨k, _, hk⟩ := live hl.1
  obtain ⟨l, _, hl'⟩ := live hl.2
  exact ⟨_, _, hk, hl', .inr rfl⟩

/-- The outcome is as expected, and the invariants are kept. -/
def Good (T : TSpec V X) (mem : Bool) (n : Nat) (s : St L Unit Unit (Obj V)) (o : Op L)
    (r : Res (St L Unit Unit (Obj V)) Unit) : Prop :=
  Meets T mem n s o r ∧ match r with
    | .ok _ s' | .threw _ s' => Indirect.IInv newDelete s' ∧ Full s'
    | _ => True

theorem call_good (I : Indirect.IInv newDelete s) (F : Full s) {o : Op L} (e : Env) (hl : Legal s o) :
    Good T (available s e) (e.choice 0) s o (call (plain T) o e s) := by
  by_cases hs : NoSwap o
  · rw [call_eq hs]
    have h := Wrapper.call_good (T := T) I F e (legal_toW hl) (noassign o)
    refine ⟨?_, h.2⟩
    have h := h.1
    revert h
    cases o with
    | swap x y => exact hs.elim
    | _ =>
      cases Wrapper.call (plain T) (toW _) e s <;> exact id
  · cases o with
    | swap x y =>
      rw [swap_eq]
      have h := Indirect.call_refines' (T := T) (e := e) newDelete_sound I (legal_swap (X := X) hl)
      obtain ⟨k, _, hk⟩ := live hl.1
      obtain ⟨l, _, hl'⟩ := live hl.2
      simp only [Spec.step, Spec.swap, hk, hl', newDelete, Bool.false_eq_true, if_false] at h
      revert h
      change Indirect.Refines newDelete (Indirect.call newDelete (plain T) (.swap x y) e s) _ → _
      cases Indirect.call newDelete (plain T) (.swap x y) e s <;> intro h <;> simp only [Indirect.Refines] at h
      obtain ⟨_, ha, I'⟩ := h
      refine ⟨?_, I', (full_abs I').2 ?_⟩
      · simp only [forget, Meets, expected]
        rw [value_fun, value_fun, ha]
        congr 1
        funext z
        simp only [upd, Spec.put]
        by_cases e1 : z = y
        · simp [e1, hk]
        · by_cases e2 : z = x
          · subst e2; simp [e1, hl']
          · simp [e1, e2]
      · intro z b hb
        rw [ha] at hb
        simp only [Spec.put] at hb
        split at hb
        · cases hb; exact (full_abs I).1 F _ _ hk
        · split at hb
          · cases hb; exact (full_abs I).1 F _ _ hl'
          · exact (full_abs I).1 F z b hb
    | _ => exact absurd trivial hs

theorem Reach.good (h : Reach T s) : Indirect.IInv newDelete s ∧ Full s := by
  induction h with
  | init => exact ⟨Inv.init, fun _ _ h => by simp [St.init] at h⟩
  | ret o e _ hl hc ih =>
    have := (call_good (T := T) ih.1 ih.2 e hl).2
    rw [hc] at this
    exact this
  | threw o e x _ hl hc ih =>
    have := (call_good (T := T) ih.1 ih.2 e hl).2
    rw [hc] at this
    exact this

/-- The same step on `indirect`. -/
def toI : Op L → Verif.Op L Unit V X
  | .swap x y => .swap x y
  | o => Wrapper.toOp (toW o)

theorem call_indirect (I : Indirect.IInv newDelete s) (F : Full s) {o : Op L} (e : Env) (hl : Legal s o) :
    call (plain T) o e s = forget (Indirect.call newDelete (plain T) (toI o) e s) ∧
      Spec.Legal newDelete (Indirect.abs s) (toI (V := V) (X := X) o) := by
  by_cases hs : NoSwap o
  · have e1 : toI (V := V) (X := X) o = Wrapper.toOp (toW o) := by
      cases o with
      | swap => exact hs.elim
      | _ => rfl
    rw [call_eq hs, Wrapper.call_eq I F e (legal_toW hl) (noassign o), e1]
    exact ⟨rfl, Wrapper.legal_to (legal_toW hl)⟩
  · cases o with
    | swap x y => exact ⟨swap_eq x y e, legal_swap hl⟩
    | _ => exact absurd trivial hs

theorem Reach.indirect (h : Reach T s) : Indirect.Reach newDelete T s := by
  induction h with
  | init => exact .init
  | @ret s s' o e hr hl hc ih =>
    obtain ⟨h1, h2⟩ := call_indirect (T := T) hr.good.1 hr.good.2 e hl
    rw [h1] at hc
    cases hi : Indirect.call newDelete (plain T) (toI o) e s with
    | ok out s₁ =>
      rw [hi] at hc
      cases hc
      exact .ret _ e out ih h2 hi
    | _ => rw [hi] at hc; cases hc
  | @threw s s' o e x hr hl hc ih =>
    obtain ⟨h1, h2⟩ := call_indirect (T := T) hr.good.1 hr.good.2 e hl
    rw [h1] at hc
    cases hi : Indirect.call newDelete (plain T) (toI o) e s with
    | threw y s₁ =>
      rw [hi] at hc
      cases hc
      exact .threw _ e x ih h2 hi
    | _ => rw [hi] at hc; cases hc

theorem run_good {cs : List (Op L × Env)} (h : Reach T s) (hl : LegalRun T cs s) :
    ∃ log s', run T cs s = .done log s' ∧ Reach T s' := by
  induction cs generalizing s with
  | nil => exact ⟨[], s, rfl, h⟩
  | cons c cs ih =>
    simp only [run, runWith, LegalRun, LegalWith] at hl ⊢
    obtain ⟨h0, h1⟩ := hl
    have hg := (call_good (T := T) h.good.1 h.good.2 c.2 h0).1
    cases hc : call (plain T) c.1 c.2 s with
    | ok out s₁ =>
      simp only [hc] at h1 ⊢
      obtain ⟨log, s', hr, hr'⟩ := ih (.ret _ _ h h0 hc) h1
      simp only [run] at hr
      rw [hr]
      exact ⟨_, s', rfl, hr'⟩
    | threw x s₁ =>
      simp only [hc] at h1 ⊢
      obtain ⟨log, s', hr, hr'⟩ := ih (.threw _ _ _ h h0 hc) h1
      simp only [run] at hr
      rw [hr]
      exact ⟨_, s', rfl, hr'⟩
    | _ => rw [hc] at hg; exact hg.elim

end
end UniquePtr

namespace Variant
section
variable {L V X : Type} [DecidableEq L]
variable {T : TSpec V X} {s s' : VS L V}

/-- The wrappers are in a state that programs with wrappers reach, but for the environment. -/
def Sane (T : TSpec V X) (w : St L Unit Unit (Obj V)) : Prop :=
  ∃ t, Wrapper.Reach T t ∧ ∀ e, w.enter e = t.enter e

theorem Sane.of {w : St L Unit Unit (Obj V)} (h : Wrapper.Reach T w) : Sane T w := ⟨w, h, fun _ => rfl⟩

theorem Sane.enter {w : St L Unit Unit (Obj V)} (h : Sane T w) (e : Env) : Sane T (w.enter e) := by
  obtain ⟨t, ht, he⟩ := h
  exact ⟨t, ht, fun e' => (he e' : _)⟩

theorem Sane.alike {w : St L Unit Unit (Obj V)} (h : Sane T w) :
    ∃ t, Wrapper.Reach T t ∧ w.hs = t.hs ∧ w.heap = t.heap ∧ w.trace = t.trace ∧ ∀ e, w.enter e = t.enter e := by
  obtain ⟨t, ht, he⟩ := h
  refine ⟨t, ht, ?_, ?_, ?_, he⟩
  · show (w.enter w.env).hs = (t.enter w.env).hs
    rw [he]
  · show (w.enter w.env).heap = (t.enter w.env).heap
    rw [he]
  · show (w.enter w.env).trace = (t.enter w.env).trace
    rw [he]

theorem alive_iff {w : St L Unit Unit (Obj V)} (h : Sane T w) (x : L) :
    Wrapper.Alive w x ↔ (Wrapper.value w x).isSome = true := by
  obtain ⟨t, ht, e1, e2, _, _⟩ := h.alike
  have ev : Wrapper.value w = Wrapper.value t := by
    funext z; simp only [Wrapper.value, Spec.valueOf, Indirect.abs, absWith, e1, e2]
  have ea : Wrapper.Alive w x ↔ Wrapper.Alive t x := by simp only [Wrapper.Alive, e1]
  rw [ea, ev]
  constructor
  · intro ha
    obtain ⟨v, _, hv⟩ := Wrapper.abs_alive ha ht.good.2 ht.good.1
    rw [hv]; rfl
  · intro hv
    obtain ⟨v, hv⟩ := Option.isSome_iff_exists.1 hv
    obtain ⟨k, _, _, hk, _⟩ := Indirect.abs_valueOf hv
    exact ⟨k, hk⟩

/-- A step with wrappers. -/
theorem wstep {w : St L Unit Unit (Obj V)} (h : Sane T w) (o : Wrapper.Op L) (e : Env) (hl : Wrapper.Legal w o)
    (hn : ¬ Wrapper.Assigns o) :
    (∃ w', Wrapper.step (plain T) o (w.enter e) = .ok () w' ∧ Sane T w' ∧
      Wrapper.expected T (available w e) (e.choice 0) (Wrapper.value w) o = .ok (Wrapper.value w')) ∨
    ∃ x w', Wrapper.step (plain T) o (w.enter e) = .threw x w' ∧ Sane T w' ∧ Wrapper.value w' = Wrapper.value w ∧
      Wrapper.expected T (available w e) (e.choice 0) (Wrapper.value w) o = .error x := by
  obtain ⟨t, ht, e1, e2, _, he⟩ := h.alike
  have ev : Wrapper.value w = Wrapper.value t := by
    funext z; simp only [Wrapper.value, Spec.valueOf, Indirect.abs, absWith, e1, e2]
  have ea : available w e = available t e := by simp only [available, e2]
  have hl' : Wrapper.Legal t o := by
    cases o <;> simpa only [Wrapper.Legal, Wrapper.Alive, e1] using hl
  have hg := (Wrapper.call_good (T := T) ht.good.1 ht.good.2 e hl' hn).1
  rw [he, ev, ea]
  change _ ∨ _
  cases hc : Wrapper.call (plain T) o e t with
  | ok u w' =>
    rw [hc] at hg
    exact .inl ⟨w', hc, .of (.ret o e ht hl' hn hc), hg⟩
  | threw x w' =>
    rw [hc] at hg
    exact .inr ⟨x, w', hc, .of (.threw o e x ht hl' hn hc), hg.2, hg.1⟩
  | _ => rw [hc] at hg; exact hg.elim

/-- What holds between steps. -/
def Inv (T : TSpec V X) (s : VS L V) : Prop :=
  Sane T s.1 ∧ ∀ x, s.2 x = .held ↔ (Wrapper.value s.1 x).isSome = true

/-- The outcome is as expected, and the invariant is kept. -/
def Good (T : TSpec V X) (mem : Bool) (n : Nat) (s : VS L V) (o : Op L) (r : Res (VS L V) Unit) : Prop :=
  Meets T mem n s o r ∧ match r with
    | .ok _ s' | .threw _ s' => Inv T s'
    | _ => True

theorem value_held {x : L} (I : Inv T s) (h : s.2 x = .held) :
    ∃ v, Wrapper.value s.1 x = some v ∧ value s x = some (.wrapped v) := by
  obtain ⟨v, hv⟩ := Option.isSome_iff_exists.1 ((I.2 x).1 h)
  exact ⟨v, hv, by simp [value, h, hv]⟩

/-- The slot of one object is changed, and that is not about wrappers. -/
theorem set_good {x : L} {w : St L Unit Unit (Obj V)} {a : Slot} (I : Inv T s) (hw : Sane T w)
    (hv : Wrapper.value w = upd (Wrapper.value s.1) x none) (ha : a ≠ .held) : Inv T (w, upd s.2 x a) := by
  refine ⟨hw, fun z => ?_⟩
  simp only [hv]
  by_cases e : z = x
  · subst e; simp [ha]
  · rw [upd_other _ _ e, upd_other _ _ e]; exact I.2 z

theorem set_held {x : L} {w : St L Unit Unit (Obj V)} {v : V} (I : Inv T s) (hw : Sane T w)
    (hv : Wrapper.value w = upd (Wrapper.value s.1) x (some v)) : Inv T (w, upd s.2 x .held) := by
  refine ⟨hw, fun z => ?_⟩
  simp only [hv]
  by_cases e : z = x
  · subst e; simp
  · rw [upd_other _ _ e, upd_other _ _ e]; exact I.2 z

/-- The value of a slot without wrapper. -/
def slotVal : Slot → Option (Val V)
  | .dead => none
  | .valueless => some .valueless
  | .int n => some (.int n)
  | .held => none

theorem value_set {x : L} {w : St L Unit Unit (Obj V)} {a : Slot}
    (hv : Wrapper.value w = upd (Wrapper.value s.1) x none) (ha : a ≠ .held) :
    value (w, upd s.2 x a) = upd (value s) x (slotVal a) := by
  funext z
  by_cases e : z = x
  · subst e
    cases a <;> simp_all [value, slotVal]
  · simp [value, hv, upd_other _ _ e]

theorem value_setHeld {x : L} {w : St L Unit Unit (Obj V)} {v : V}
    (hv : Wrapper.value w = upd (Wrapper.value s.1) x (some v)) :
    value (w, upd s.2 x .held) = upd (value s) x (some (.wrapped v)) := by
  funext z
  by_cases e : z = x
  · subst e; simp [value, hv]
  · simp [value, hv, upd_other _ _ e]

theorem none_of {x : L} (I : Inv T s) (h : s.2 x ≠ .held) : Wrapper.value s.1 x = none := by
  cases hv : Wrapper.value s.1 x with
  | none => rfl
  | some v => exact absurd ((I.2 x).2 (by rw [hv]; rfl)) h

theorem upd_none {x : L} (I : Inv T s) (h : s.2 x ≠ .held) :
    Wrapper.value s.1 = upd (Wrapper.value s.1) x none := by
  rw [← none_of I h, Wrapper.upd_same]

/-- A wrapper is made at `x`, which holds none; afterwards `x` holds it. -/
theorem store_good {x : L} (I : Inv T s) (o : Wrapper.Op L) (e : Env) (r : Except Exn V)
    (hl : Wrapper.Legal s.1 o) (hn : ¬ Wrapper.Assigns o)
    (ho : Wrapper.expected T (available s.1 e) (e.choice 0) (Wrapper.value s.1) o =
      r.map fun v => upd (Wrapper.value s.1) x (some v)) :
    (∃ v w, r = .ok v ∧ Wrapper.step (plain T) o (s.1.enter e) = .ok () w ∧ Sane T w ∧
      Wrapper.value w = upd (Wrapper.value s.1) x (some v)) ∨
    ∃ y w, r = .error y ∧ Wrapper.step (plain T) o (s.1.enter e) = .threw y w ∧ Sane T w ∧
      Wrapper.value w = Wrapper.value s.1 := by
  rcases wstep I.1 o e hl hn with ⟨w, h1, h2, h3⟩ | ⟨y, w, h1, h2, h3, h4⟩
  · rw [ho] at h3
    cases r with
    | ok v => exact .inl ⟨v, w, rfl, h1, h2, (Except.ok.inj h3).symm⟩
    | error y => cases h3
  · rw [ho] at h4
    cases r with
    | ok v => cases h4
    | error z => cases h4; exact .inr ⟨_, w, rfl, h1, h2, h3⟩

theorem map_attempt (mem : Bool) (r : Except Exn V) (f : V → L → Option V) :
    (if mem then r.map f else .error .badAlloc) = (attempt mem r).map f := by
  cases mem <;> rfl

/-- What the destruction of the contents does. -/
theorem reset_good {x : L} (I : Inv T s) (e : Env) (a : Slot) :
    ∃ w, (do reset (plain T) x; set x a) (s.1.enter e, s.2) = .ok () (w, upd s.2 x a) ∧
      reset (plain T) x (s.1.enter e, s.2) = .ok () (w, upd s.2 x .valueless) ∧ Sane T w ∧
      Wrapper.value w = upd (Wrapper.value s.1) x none ∧ (s.2 x ≠ .held → w = s.1.enter e) := by
  cases hx : s.2 x with
  | held =>
    rcases wstep I.1 (.destroy x) e ((alive_iff I.1 x).2 ((I.2 x).1 hx)) (by simp [Wrapper.Assigns]) with
      ⟨w, h1, h2, h3⟩ | ⟨y, w, _, _, _, h4⟩
    · refine ⟨w, ?_, ?_, h2, (Except.ok.inj h3).symm, fun h => absurd rfl h⟩
      · simp [M.bind_eq, reset, look, hx, lift, h1, set, Wrapper.upd_upd]
      · simp [M.bind_eq, reset, look, hx, lift, h1, set]
    · cases h4
  | _ =>
    refine ⟨s.1.enter e, ?_, ?_, I.1.enter e, upd_none I (by simp [hx]), fun _ => rfl⟩
    · simp [M.bind_eq, reset, look, hx, set, Wrapper.upd_upd]
    · simp [M.bind_eq, reset, look, hx, set]

theorem call_good (I : Inv T s) {o : Op L} (e : Env) (hl : Legal s o) (hn : ¬ Assigns s o) :
    Good T (available s.1 e) (e.choice 0) s o (call (plain T) o e s) := by
  have hdead : ∀ {x : L}, ¬ Alive s x → s.2 x ≠ .held := by
    intro x h h'
    exact h (by simp [Alive, h'])
  have hnot : ∀ {x : L}, s.2 x ≠ .held → ¬ Wrapper.Alive s.1 x := by
    intro x h h'
    exact h ((I.2 x).2 ((alive_iff I.1 x).1 h'))
  have hcopy : ∀ x y : L, ¬ Alive s x → Alive s y → ∀ o : Op L, (o = .copy x y ∨ o = .move x y) →
      Good T (available s.1 e) (e.choice 0) s o (ctorCopy (plain T) x y (s.1.enter e, s.2)) := by
    intro x y hx hy o ho
    have he : expected T (available s.1 e) (e.choice 0) (value s) o =
        expected T (available s.1 e) (e.choice 0) (value s) (.copy x y) := by rcases ho with rfl | rfl <;> rfl
    cases hs : s.2 y with
    | held =>
      obtain ⟨v, hv, hv'⟩ := value_held I hs
      rcases store_good I (x := x) (.copy x y) e (attempt (available s.1 e) (T.copy v (e.choice 0)))
          ⟨hnot (hdead hx), (alive_iff I.1 y).2 ((I.2 y).1 hs)⟩ (by simp [Wrapper.Assigns])
          (by simp only [Wrapper.expected, hv]; exact map_attempt _ _ _) with
        ⟨u, w, hr, h1, h2, h3⟩ | ⟨f, w, hr, h1, h2, h3⟩
      · have : ctorCopy (plain T) x y (s.1.enter e, s.2) = .ok () (w, upd s.2 x .held) := by
          simp [ctorCopy, M.bind_eq, look, hs, lift, h1, set]
        rw [this]
        refine ⟨?_, set_held I h2 h3⟩
        simp only [Meets, he]
        rw [value_setHeld h3]
        simp only [expected, hv', hr, give]
      · have : ctorCopy (plain T) x y (s.1.enter e, s.2) = .threw f (w, s.2) := by
          simp [ctorCopy, M.bind_eq, look, hs, lift, h1, set]
        rw [this]
        refine ⟨?_, h2, fun z => by rw [h3]; exact I.2 z⟩
        simp only [Meets, he]
        rw [show value (w, s.2) = value s from by funext z; simp only [value, h3]]
        simp only [expected, hv', hr, give]
    | dead => exact absurd hs hy
    | valueless =>
      have : ctorCopy (plain T) x y (s.1.enter e, s.2) = .ok () (s.1.enter e, upd s.2 x .valueless) := by
        simp [ctorCopy, M.bind_eq, look, hs, set]
      rw [this]
      refine ⟨?_, set_good I (I.1.enter e) (upd_none I (hdead hx)) (by simp)⟩
      simp only [Meets, he]
      rw [value_set (w := s.1.enter e) (upd_none I (hdead hx)) (by simp)]
      simp [expected, value, hs, slotVal]
    | int n =>
      have : ctorCopy (plain T) x y (s.1.enter e, s.2) = .ok () (s.1.enter e, upd s.2 x (.int n)) := by
        simp [ctorCopy, M.bind_eq, look, hs, set]
      rw [this]
      refine ⟨?_, set_good I (I.1.enter e) (upd_none I (hdead hx)) (by simp)⟩
      simp only [Meets, he]
      rw [value_set (w := s.1.enter e) (upd_none I (hdead hx)) (by simp)]
      simp [expected, value, hs, slotVal]
  have hint : ∀ (x : L) (k : Int), ∃ w, assignInt (plain T) x k (s.1.enter e, s.2) = .ok () (w, upd s.2 x (.int k)) ∧
      Sane T w ∧ Wrapper.value w = upd (Wrapper.value s.1) x none := by
    intro x k
    cases hs : s.2 x with
    | int m =>
      exact ⟨s.1.enter e, by simp [assignInt, M.bind_eq, look, hs, set], I.1.enter e, upd_none I (by simp [hs])⟩
    | _ =>
      obtain ⟨w, h1, _, h2, h3, _⟩ := reset_good (T := T) (x := x) I e (.int k)
      refine ⟨w, ?_, h2, h3⟩
      rw [← h1]
      simp [assignInt, M.bind_eq, look, hs]
  cases o with
  | make x =>
    rcases store_good I (x := x) (.make x) e (attempt (available s.1 e) (T.make .none (e.choice 0)))
        (hnot (hdead hl)) (by simp [Wrapper.Assigns]) (map_attempt _ _ _) with
      ⟨u, w, hr, h1, h2, h3⟩ | ⟨f, w, hr, h1, h2, h3⟩
    · have : call (plain T) (.make x) e s = .ok () (w, upd s.2 x .held) := by
        simp [call, step, ctorDefault, M.bind_eq, lift, h1, set]
      rw [this]
      refine ⟨?_, set_held I h2 h3⟩
      simp only [Meets]
      rw [value_setHeld h3]
      simp only [expected, hr, give]
    · have : call (plain T) (.make x) e s = .threw f (w, s.2) := by
        simp [call, step, ctorDefault, M.bind_eq, lift, h1, set]
      rw [this]
      refine ⟨?_, h2, fun z => by rw [h3]; exact I.2 z⟩
      simp only [Meets]
      rw [show value (w, s.2) = value s from by funext z; simp only [value, h3]]
      simp only [expected, hr, give]
  | copy x y => exact hcopy x y hl.1 hl.2 _ (.inl rfl)
  | move x y => exact hcopy x y hl.1 hl.2 _ (.inr rfl)
  | assignInt x k =>
    obtain ⟨w, h1, h2, h3⟩ := hint x k
    have : call (plain T) (.assignInt x k) e s = .ok () (w, upd s.2 x (.int k)) := h1
    rw [this]
    refine ⟨?_, set_good I h2 h3 (by simp)⟩
    simp only [Meets]
    rw [value_set h3 (by simp)]
    simp only [expected, slotVal]
  | destroy x =>
    obtain ⟨w, h1, _, h2, h3, _⟩ := reset_good (T := T) (x := x) I e .dead
    have : call (plain T) (.destroy x) e s = .ok () (w, upd s.2 x .dead) := h1
    rw [this]
    refine ⟨?_, set_good I h2 h3 (by simp)⟩
    simp only [Meets]
    rw [value_set h3 (by simp)]
    simp only [expected, slotVal]
  | assign x y =>
    obtain ⟨hx, hy⟩ := hl
    show Good T _ _ s _ (assign (plain T) x y (s.1.enter e, s.2))
    cases hsy : s.2 y with
    | dead => exact absurd hsy hy
    | int k =>
      obtain ⟨w, h1, h2, h3⟩ := hint x k
      have : assign (plain T) x y (s.1.enter e, s.2) = .ok () (w, upd s.2 x (.int k)) := by
        rw [← h1]
        cases hsx : s.2 x <;> simp [assign, M.bind_eq, look, hsx, hsy]
      rw [this]
      refine ⟨?_, set_good I h2 h3 (by simp)⟩
      simp only [Meets]
      rw [value_set h3 (by simp)]
      have vy : value s y = some (.int k) := by simp [value, hsy]
      cases hv : value s x with
      | none => simp [expected, hv, vy, slotVal]
      | some u => cases u <;> simp [expected, hv, vy, slotVal]
    | valueless =>
      have vy : value s y = some .valueless := by simp [value, hsy]
      obtain ⟨w, _, h1, h2, h3, _⟩ := reset_good (T := T) (x := x) I e .dead
      have : ∃ w, assign (plain T) x y (s.1.enter e, s.2) = .ok () (w, upd s.2 x .valueless) ∧ Sane T w ∧
          Wrapper.value w = upd (Wrapper.value s.1) x none := by
        cases hsx : s.2 x with
        | valueless =>
          refine ⟨s.1.enter e, ?_, I.1.enter e, upd_none I (by simp [hsx])⟩
          rw [show upd s.2 x .valueless = s.2 from by rw [← hsx, Wrapper.upd_same]]
          simp [assign, M.bind_eq, look, hsx, hsy, M.pure_eq]
        | _ =>
          refine ⟨w, ?_, h2, h3⟩
          rw [← h1]
          simp [assign, M.bind_eq, look, hsx, hsy]
      obtain ⟨w, h1, h2, h3⟩ := this
      rw [h1]
      refine ⟨?_, set_good I h2 h3 (by simp)⟩
      simp only [Meets]
      rw [value_set h3 (by simp)]
      cases hv : value s x with
      | none => simp [expected, hv, vy, slotVal]
      | some u => cases u <;> simp [expected, hv, vy, slotVal]
    | held =>
      obtain ⟨v, hv, hv'⟩ := value_held I hsy
      by_cases hsx : s.2 x = .held
      · have hxy : x = y := Classical.byContradiction fun h => hn ⟨h, hsx, hsy⟩
        subst hxy
        rcases wstep I.1 (.assign x x) e ⟨(alive_iff I.1 x).2 ((I.2 x).1 hsx), (alive_iff I.1 x).2 ((I.2 x).1 hsx)⟩
            (by simp [Wrapper.Assigns]) with ⟨w, h1, h2, h3⟩ | ⟨_, _, _, _, _, h4⟩
        · have : assign (plain T) x x (s.1.enter e, s.2) = .ok () (w, s.2) := by
            simp [assign, M.bind_eq, look, hsx, lift, h1]
          rw [this]
          have h3 := (Except.ok.inj h3).symm
          rw [Wrapper.upd_same] at h3
          refine ⟨?_, h2, fun z => by rw [h3]; exact I.2 z⟩
          simp only [Meets]
          rw [show value (w, s.2) = value s from by funext z; simp only [value, h3]]
          simp only [expected, hv']
          rw [← hv', Wrapper.upd_same]
        · cases h4
      · obtain ⟨w₀, _, h1, h2, h3, h4⟩ := reset_good (T := T) (x := x) I e .dead
        have hw := h4 hsx
        subst hw
        have hne : x ≠ y := fun h => hsx (h ▸ hsy)
        have ux : ∀ v, value s x ≠ some (.wrapped v) := by
          intro v hv
          cases hs : s.2 x <;> simp [value, hs] at hv
          exact hsx hs
        have ex : expected T (available s.1 e) (e.choice 0) (value s) (.assign x y) =
            give (value s) (upd (value s) x (some .valueless)) x
              (attempt (available s.1 e) (T.copy v (e.choice 0))) := by
          cases hvx : value s x with
          | none => simp [expected, hvx, hv']
          | some u =>
            cases u with
            | wrapped u => exact absurd hvx (ux u)
            | _ => simp [expected, hvx, hv']
        have hcall : assign (plain T) x y (s.1.enter e, s.2) =
            (do lift (Wrapper.step (plain T) (.copy x y)); set x .held : M (VS L V) Unit)
              (s.1.enter e, upd s.2 x .valueless) := by
          cases hs : s.2 x with
          | held => exact absurd hs hsx
          | _ => simp [assign, M.bind_eq, look, hs, hsy, h1]
        rw [hcall]
        rcases store_good I (x := x) (.copy x y) e (attempt (available s.1 e) (T.copy v (e.choice 0)))
            ⟨hnot hsx, (alive_iff I.1 y).2 ((I.2 y).1 hsy)⟩ (by simp [Wrapper.Assigns])
            (by simp only [Wrapper.expected, hv]; exact map_attempt _ _ _) with
          ⟨u, w, hr, g1, g2, g3⟩ | ⟨f, w, hr, g1, g2, g3⟩
        · have : (do lift (Wrapper.step (plain T) (.copy x y)); set x .held : M (VS L V) Unit)
              (s.1.enter e, upd s.2 x .valueless) = .ok () (w, upd s.2 x .held) := by
            simp [M.bind_eq, lift, g1, set, Wrapper.upd_upd]
          rw [this]
          refine ⟨?_, set_held I g2 g3⟩
          simp only [Meets]
          rw [value_setHeld g3, ex, hr, give]
        · have : (do lift (Wrapper.step (plain T) (.copy x y)); set x .held : M (VS L V) Unit)
              (s.1.enter e, upd s.2 x .valueless) = .threw f (w, upd s.2 x .valueless) := by
            simp [M.bind_eq, lift, g1]
          rw [this]
          have g3' : Wrapper.value w = upd (Wrapper.value s.1) x none := g3.trans (upd_none I hsx)
          refine ⟨?_, set_good I g2 g3' (by simp)⟩
          simp only [Meets]
          rw [value_set g3' (by simp), ex, hr, give]
          rfl

theorem Reach.good (h : Reach T s) : Inv T s := by
  induction h with
  | init => exact ⟨.of .init, fun x => by simp [start, Wrapper.value, Spec.valueOf, Indirect.abs, absWith, St.init]⟩
  | ret o e _ hl hn hc ih =>
    have := (call_good (T := T) ih e hl hn).2
    rw [hc] at this
    exact this
  | threw o e x _ hl hn hc ih =>
    have := (call_good (T := T) ih e hl hn).2
    rw [hc] at this
    exact this

theorem run_good {cs : List (Op L × Env)} (h : Reach T s) (hl : LegalRun T cs s) :
    ∃ log s', run T cs s = .done log s' ∧ Reach T s' := by
  induction cs generalizing s with
  | nil => exact ⟨[], s, rfl, h⟩
  | cons c cs ih =>
    simp only [run, runWith, LegalRun, LegalWith] at hl ⊢
    obtain ⟨⟨h0, hn⟩, h1⟩ := hl
    have hg := (call_good (T := T) h.good c.2 h0 hn).1
    cases hc : call (plain T) c.1 c.2 s with
    | ok out s₁ =>
      simp only [hc] at h1 ⊢
      obtain ⟨log, s', hr, hr'⟩ := ih (.ret _ _ h h0 hn hc) h1
      simp only [run] at hr
      rw [hr]
      exact ⟨_, s', rfl, hr'⟩
    | threw x s₁ =>
      simp only [hc] at h1 ⊢
      obtain ⟨log, s', hr, hr'⟩ := ih (.threw _ _ _ h h0 hn hc) h1
      simp only [run] at hr
      rw [hr]
      exact ⟨_, s', rfl, hr'⟩
    | _ => rw [hc] at hg; exact hg.elim

end
end Variant
end Verif.Members
