import Verif.Proofs.IndirectEval
import Verif.Proofs.Abs

/-! Every legal call on `indirect` objects refines the specification and keeps the invariant. -/

set_option autoImplicit false
set_option linter.unusedSectionVars false
set_option linter.unusedSimpArgs false

attribute [-simp] bind_pure_comp

namespace Verif.Indirect
open Verif

section
variable {L A R V X : Type} [DecidableEq L] [DecidableEq R]

/-- The ownership invariant for `indirect`. -/
def IInv (tr : ATraits A R) (s : St L A R (Obj V)) : Prop :=
  Inv tr.res (fun _ b => b.isSome = true) s.hs s.heap

/-- Outcome of a call against outcome of the specification. -/
def Refines (tr : ATraits A R) : Res (St L A R (Obj V)) (Out L A V) → Spec.Result L A V → Prop
  | .ok o s', .ret o' σ => o = o' ∧ abs s' = σ ∧ IInv tr s'
  | .threw e s', .threw e' σ => e = e' ∧ abs s' = σ ∧ IInv tr s'
  | .terminated, .terminated => True
  | _, _ => False

variable (tr : ATraits A R) (T : TSpec V X)
variable {tr} {T}

theorem IInv.own' {s : St L A R (Obj V)} (I : IInv tr s) {l : L} {h : Handle A} {p : Addr}
    (hl : s.hs l = some h) (hp : h.p = some p) : ∃ v, s.heap p = some ⟨tr.res h.alloc, some v⟩ := by
  obtain ⟨b, hb, hg⟩ := I.own l h p hl hp
  cases b with
  | none => simp at hg
  | some v => exact ⟨v, hb⟩

theorem memOk_heap {s : St L A R (Obj V)} (h : memOk s = true) : s.heap (s.env.pick s.ai) = none := by
  simp [memOk] at h; exact h.2

/-- The result of `constructFrom`, put into a new object. -/
theorem refines_emplace {s s₁ : St L A R (Obj V)} {x : L} {a : A} {how : How} {r : Except Exn V}
    {m : M (St L A R (Obj V)) Addr} (I : IInv tr s) (I₁ : IInv tr s₁)
    (hx : s.hs x = none) (hx₁ : s₁.hs x = none)
    (hp : memOk s = true → s₁.heap (s.env.pick s.ai) = none)
    (hm : m s = if memOk s then placed (tr.res a) (s.env.pick s.ai) how s₁ r
      else .threw .badAlloc { s with ai := s.ai + 1 }) :
    Refines tr ((do let p ← m; emplace x ⟨some p, a⟩; pure .unit : M _ (Out L A V)) s)
      (if memOk s then Spec.store (abs s₁) .unit x a r else .threw .badAlloc (abs s)) := by
  rw [M.bind_eq, hm]
  by_cases h : memOk s = true
  · simp only [h, if_true]
    cases r with
    | ok v =>
      simp only [placed, M.bind_eq, emplace, hx₁, Spec.store, M.pure_eq, Refines, true_and]
      exact ⟨abs_create I₁ (hp h), Inv.create I₁ hx₁ (hp h) rfl⟩
    | error e => simpa [placed, Spec.store, Refines] using ⟨rfl, I₁⟩
  · simpa [h, Refines] using ⟨rfl, I⟩

theorem store_build (mem : Bool) (r : Except Exn V) (σ : Spec.Boxes L A V) (o : Out L A V) (x : L) (a : A) :
    Spec.store σ o x a (Spec.build mem r) =
      if mem then Spec.store σ o x a r else .threw .badAlloc σ := by
  cases mem <;> simp [Spec.build, Spec.store]

theorem abs_valueOf {s : St L A R (Obj V)} {y : L} {v : V} (h : Spec.valueOf (abs s) y = some v) :
    ∃ k p r, s.hs y = some k ∧ k.p = some p ∧ s.heap p = some ⟨r, some v⟩ := by
  unfold Spec.valueOf at h
  cases hy : abs s y with
  | none => simp [hy] at h
  | some b =>
    obtain ⟨k, hk, _, hv⟩ := abs_some hy
    simp [hy] at h
    rw [hv] at h
    cases hp : k.p with
    | none => simp [hp] at h
    | some p =>
      simp [hp] at h
      cases hh : s.heap p with
      | none => simp [hh] at h
      | some c =>
        simp [hh] at h
        exact ⟨k, p, c.arena, hk, hp, by rw [hh]; cases c; simp_all⟩

theorem valueOf_abs {s : St L A R (Obj V)} {y : L} {k : Handle A} {p : Addr} {r : R} {v : V}
    (hk : s.hs y = some k) (hp : k.p = some p) (hh : s.heap p = some ⟨r, some v⟩) :
    Spec.valueOf (abs s) y = some v := by
  simp [Spec.valueOf, abs, absWith, hk, hp, hh]

theorem deref_some {s : St L A R (Obj V)} {y : L} {k : Handle A} {p : Addr}
    (hk : s.hs y = some k) (hp : k.p = some p) : deref y s = .ok p s := by
  simp [deref, M.bind_eq, getH, hk, hp]

theorem evalSrc_lval {s : St L A R (Obj V)} {y : L} {k : Handle A} {p : Addr}
    (hk : s.hs y = some k) (hp : k.p = some p) :
    evalSrc (X := X) (.lval y) s = .ok (.lval p) s := by
  simp [evalSrc, M.bind_eq, deref_some hk hp]

theorem evalSrc_rval {s : St L A R (Obj V)} {y : L} {k : Handle A} {p : Addr}
    (hk : s.hs y = some k) (hp : k.p = some p) :
    evalSrc (X := X) (.rval y) s = .ok (.rval p) s := by
  simp [evalSrc, M.bind_eq, deref_some hk hp]

theorem abs_moved {s : St L A R (Obj V)} (I : IInv tr s) {y : L} {k : Handle A} {p : Addr} {r : R} {v : V}
    (hk : s.hs y = some k) (hp : k.p = some p) :
    absWith (fun b => b) s.hs (upd s.heap p (some ⟨r, some v⟩)) = Spec.setVal (abs s) y (some v) :=
  abs_write I hk hp

theorem moved_fresh {s : St L A R (Obj V)} {p : Addr} {r r' : R} {v v' : V}
    (hh : s.heap p = some ⟨r, some v⟩) (h : memOk s = true) :
    upd s.heap p (some ⟨r', some v'⟩) (s.env.pick s.ai) = none := by
  have h' := memOk_heap h
  rw [upd_other]
  · exact h'
  · intro e; rw [e] at h'; simp [hh] at h'

/-- Construction of a new object by moving from the object of `y`. -/
theorem refines_moveFrom {s : St L A R (Obj V)} (I : IInv tr s) {x y : L} {a : A} {k : Handle A} {p : Addr}
    {r : R} {v : V} (hx : s.hs x = none) (hk : s.hs y = some k) (hp : k.p = some p)
    (hh : s.heap p = some ⟨r, some v⟩) :
    Refines tr ((do
        let p ← constructFrom tr a (fun a m => (plain T).moveCtor a m p)
        emplace x ⟨some p, a⟩; pure .unit : M _ (Out L A V)) s)
      (if memOk s then Spec.store (Spec.setVal (abs s) y (some (T.move v (s.env.choice s.ti)).2)) .unit x a
        (T.move v (s.env.choice s.ti)).1 else .threw .badAlloc (abs s)) := by
  have I₁ := Inv.write I (b' := some (T.move v (s.env.choice s.ti)).2) hh rfl
  have := refines_emplace I (s₁ := { s with
      heap := upd s.heap p (some ⟨r, some (T.move v (s.env.choice s.ti)).2⟩),
      ai := s.ai + 1, ti := s.ti + 1 }) I₁ hx hx (moved_fresh hh)
    (constructFrom_move tr T a p s r v hh)
  rw [← abs_moved (r := r) I hk hp]
  exact this

/-- Construction from a forwarded argument. -/
theorem refines_fwd {s : St L A R (Obj V)} (I : IInv tr s) {x : L} {a : A} (u : Src L X)
    (hx : s.hs x = none) (hu : Spec.LegalSrc (abs s) u) :
    Refines tr ((do
        let u ← evalSrc u
        let p ← constructFrom tr a (fun a m => (plain T).makeFwd a m u)
        emplace x ⟨some p, a⟩; pure .unit : M _ (Out L A V)) s)
      (Spec.store (Spec.buildFrom T (memOk s) (s.env.choice s.ti) (abs s) u).2 .unit x a
        (Spec.buildFrom T (memOk s) (s.env.choice s.ti) (abs s) u).1) := by
  cases u with
  | arg w =>
    simp only [evalSrc, Spec.buildFrom, store_build, pure_bind]
    exact refines_emplace I (s₁ := { s with ai := s.ai + 1, ti := s.ti + 1 }) I hx hx memOk_heap
      (constructFrom_make tr T a (.pack [w]) s)
  | lval y =>
    obtain ⟨v, hv⟩ := hu
    obtain ⟨k, p, r, hk, hp, hh⟩ := abs_valueOf hv
    simp only [Spec.buildFrom, hv, store_build]
    have := refines_emplace I (s₁ := { s with ai := s.ai + 1, ti := s.ti + 1 }) I hx hx memOk_heap
      (constructFrom_copy tr T a p s r v hh)
    rw [M.bind_ok (evalSrc_lval hk hp)]
    exact this
  | rval y =>
    obtain ⟨v, hv⟩ := hu
    obtain ⟨k, p, r, hk, hp, hh⟩ := abs_valueOf hv
    have := refines_moveFrom (T := T) (a := a) I hx hk hp hh
    rw [M.bind_ok (evalSrc_rval hk hp)]
    simp only [Spec.buildFrom, hv]
    cases hm : memOk s
    · simp only [hm] at this; exact this
    · simp only [hm] at this; exact this

theorem refines_make {s : St L A R (Obj V)} (I : IInv tr s) {x : L} {oa : Option A} (c : Ctor L X)
    (hx : s.hs x = none) (hc : Spec.LegalCtor (abs s) c) :
    Refines tr (step tr (plain T) (.make x oa c) s)
      (Spec.step tr T (memOk s) (s.env.choice s.ti) (abs s) (.make x oa c)) := by
  have H : ∀ a xs, Refines tr ((do
        let p ← constructFrom tr a (fun a m => (plain T).make a m xs)
        emplace x ⟨some p, a⟩; pure .unit : M _ (Out L A V)) s)
      (Spec.store (abs s) .unit x a (Spec.build (memOk s) (T.make xs (s.env.choice s.ti)))) := by
    intro a xs
    rw [store_build]
    exact refines_emplace I (s₁ := { s with ai := s.ai + 1, ti := s.ti + 1 }) I hx hx memOk_heap
      (constructFrom_make tr T a xs s)
  cases oa <;> cases c <;>
    simp only [step, construct, ctorDefault, ctorDefaultA, ctorFrom, ctorFromA, ctorInPlace, ctorInPlaceA,
      ctorInPlaceOneA, ctorIlist, ctorIlistA, Spec.step, Spec.buildCtor, Option.getD, bind_assoc,
      pure_bind]
  all_goals first
    | exact H _ _
    | exact refines_fwd I _ hx hc

theorem abs_live {s : St L A R (Obj V)} {y : L} (h : Spec.Live (abs s) y) : ∃ k, s.hs y = some k := by
  obtain ⟨b, hb⟩ := h
  obtain ⟨k, hk, _⟩ := abs_some hb
  exact ⟨k, hk⟩

theorem abs_dead {s : St L A R (Obj V)} {y : L} (h : Spec.Dead (abs s) y) : s.hs y = none := by
  simpa [Spec.Dead, abs, absWith] using h

theorem abs_null {s : St L A R (Obj V)} {y : L} {k : Handle A} (hk : s.hs y = some k) (hp : k.p = none) :
    abs s y = some ⟨k.alloc, none⟩ := by
  simp [abs, absWith, hk, hp]

theorem abs_val {s : St L A R (Obj V)} {y : L} {k : Handle A} {p : Addr} {r : R} {v : V}
    (hk : s.hs y = some k) (hp : k.p = some p) (hh : s.heap p = some ⟨r, some v⟩) :
    abs s y = some ⟨k.alloc, some v⟩ := by
  simp [abs, absWith, hk, hp, hh]

theorem valueless_eq {s : St L A R (Obj V)} {y : L} {k : Handle A} (hk : s.hs y = some k) :
    valueless y s = .ok (k.p == none) s := by
  simp [valueless, M.bind_eq, getH, hk]

theorem refines_copyA {s : St L A R (Obj V)} (I : IInv tr s) {x y : L} {a : A}
    (hx : s.hs x = none) (hy : Spec.Live (abs s) y) :
    Refines tr ((do
        let h ← ctorCopyA tr (plain T) a y
        emplace x h; pure .unit : M _ (Out L A V)) s)
      (Spec.copyA T (memOk s) (s.env.choice s.ti) (abs s) x a y) := by
  obtain ⟨k, hk⟩ := abs_live hy
  simp only [ctorCopyA, bind_assoc]
  rw [M.bind_ok (valueless_eq hk)]
  cases hp : k.p with
  | none =>
    simp only [Spec.copyA, abs_null hk hp]
    simp [M.bind_eq, emplace, hx, Refines]
    exact ⟨abs_createNull, Inv.createNull I hx⟩
  | some p =>
    obtain ⟨v, hv⟩ := I.own' hk hp
    simp only [Spec.copyA, abs_val hk hp hv, store_build]
    have := refines_emplace I (s₁ := { s with ai := s.ai + 1, ti := s.ti + 1 }) I hx hx memOk_heap
      (constructFrom_copy tr T a p s _ v hv)
    simp only [reduceCtorEq, bne_iff_ne, beq_iff_eq, if_false, bind_assoc, pure_bind]
    rw [M.bind_ok (deref_some hk hp)]
    exact this

theorem refines_noexcept {b : Bool} {m : M (St L A R (Obj V)) (Handle A)} {s : St L A R (Obj V)} {x : L}
    {r : Spec.Result L A V} 
    (h : Refines tr ((do let h ← m; emplace x h; pure .unit : M _ (Out L A V)) s) r) :
    Refines tr ((do let h ← M.noexceptIf b m; emplace x h; pure .unit : M _ (Out L A V)) s)
      (Spec.noexceptIf b r) := by
  rw [M.bind_eq] at h ⊢
  simp only [M.noexceptIf]
  cases hm : m s with
  | ok v s' =>
    simp only [hm] at h ⊢
    cases hx : s'.hs x <;> simp only [M.bind_eq, emplace, hx, M.pure_eq] at h ⊢ <;>
      cases r <;> simp_all [Refines, Spec.noexceptIf]
  | threw e s' =>
    simp only [hm] at h ⊢
    cases b
    · cases r <;> simp_all [Refines, Spec.noexceptIf]
    · cases r <;> simp_all [Refines, Spec.noexceptIf]
  | terminated => cases r <;> simp_all [Refines, Spec.noexceptIf]
  | ub u => cases r <;> simp_all [Refines, Spec.noexceptIf]
  | diverged => cases r <;> simp_all [Refines, Spec.noexceptIf]

theorem spec_noexceptIf_idem (b : Bool) (r : Spec.Result L A V) :
    Spec.noexceptIf b (Spec.noexceptIf b r) = Spec.noexceptIf b r := by
  cases b <;> cases r <;> rfl

theorem refines_moveA {s : St L A R (Obj V)} (S : tr.Sound) (I : IInv tr s) {x y : L} {a : A}
    (hx : s.hs x = none) (hy : Spec.Live (abs s) y) :
    Refines tr ((do
        let h ← ctorMoveA tr (plain T) a y
        emplace x h; pure .unit : M _ (Out L A V)) s)
      (Spec.noexceptIf tr.alwaysEqual (Spec.moveA tr T (memOk s) (s.env.choice s.ti) (abs s) x a y)) := by
  apply refines_noexcept
  obtain ⟨k, hk⟩ := abs_live hy
  have hxy : x ≠ y := by rintro rfl; simp [hx] at hk
  simp only [bind_assoc]
  rw [M.bind_ok (getH_some hk)]
  have steal : tr.res a = tr.res k.alloc → Refines tr ((do
        setP y none
        emplace x ⟨k.p, a⟩; pure .unit : M _ (Out L A V)) s)
      (.ret .unit (Spec.put (Spec.put (abs s) y ⟨k.alloc, none⟩) x
        ⟨a, k.p.bind fun p => (s.heap p).bind fun c => c.body⟩)) := by
    intro hr
    rw [M.bind_ok (setP_some hk none), M.bind_ok (emplace_none (by simp [upd_other _ _ hxy, hx]) _)]
    refine ⟨rfl, ?_, Inv.steal I hx hk hr⟩
    show absWith _ _ _ = _
    rw [abs_put, abs_put]; rfl
  have hab : abs s y = some ⟨k.alloc, k.p.bind fun p => (s.heap p).bind fun c => c.body⟩ := by
    simp [abs, absWith, hk]
  simp only [Spec.moveA, hab]
  cases hae : tr.alwaysEqual
  · cases heq : tr.eq a k.alloc
    · simp only [hae, heq, Bool.false_eq_true, if_false, Bool.or_self]
      simp only [bind_assoc]
      rw [M.bind_ok (valueless_eq hk)]
      cases hp : k.p with
      | none =>
        simp [M.bind_eq, emplace, hx, Refines]
        exact ⟨abs_createNull, Inv.createNull I hx⟩
      | some p =>
        obtain ⟨v, hv⟩ := I.own' hk hp
        have := refines_moveFrom (T := T) (a := a) I hx hk hp hv
        simp only [hv, Option.bind_some, reduceCtorEq, beq_eq_false_iff_ne, ne_eq, not_false_eq_true,
          Bool.not_false, if_true, beq_iff_eq, bind_assoc, pure_bind, Option.some_beq_none]
        rw [M.bind_ok (deref_some hk hp)]
        exact this
    · simp only [hae, heq, Bool.false_eq_true, if_false, if_true, bind_assoc, pure_bind, Bool.or_true]
      exact steal (S.eq_res _ _ heq)
  · simp only [hae, if_true, bind_assoc, pure_bind, Bool.true_or]
    exact steal (S.always_res hae _ _)

theorem refines_unwrap {b : Bool} {m : M (St L A R (Obj V)) (Out L A V)} {s : St L A R (Obj V)}
    {r : Spec.Result L A V} (h : Refines tr (m s) r) :
    Refines tr (M.noexceptIf b m s) (Spec.noexceptIf b r) := by
  simp only [M.noexceptIf]
  cases hm : m s <;> rw [hm] at h <;> cases b <;> cases r <;> simp_all [Refines, Spec.noexceptIf]

theorem noexceptIf_bind_pure {σ α β : Type} {b : Bool} (m : M σ α) (f : α → β) :
    (do let r ← M.noexceptIf b m; pure (f r) : M σ β) = M.noexceptIf b (do let r ← m; pure (f r)) := by
  funext s
  simp only [M.bind_eq, M.noexceptIf]
  cases m s <;> simp
  cases b <;> rfl

theorem reset_cases {s : St L A R (Obj V)} (I : IInv tr s) {x : L} {h : Handle A} (hx : s.hs x = some h) :
    ∃ s', reset tr (plain T) x s = .ok () s' ∧ s'.hs = upd s.hs x (some { h with p := none }) ∧
      abs s' = Spec.setVal (abs s) x none ∧ IInv tr s' ∧ s'.env = s.env ∧ s'.ai = s.ai ∧ s'.ti = s.ti ∧
      (∀ q, h.p ≠ some q → s'.heap q = s.heap q) := by
  cases hp : h.p with
  | none =>
    refine ⟨s, reset_null tr T hx hp, ?_, ?_, I, rfl, rfl, rfl, fun _ _ => rfl⟩
    · rw [upd_id]; rw [hx, ← hp]
    · funext z; simp only [Spec.setVal]; split
      · rename_i e; subst e; simp [abs, absWith, hx, hp]
      · rfl
  | some p =>
    obtain ⟨v, hv⟩ := I.own' hx hp
    refine ⟨_, reset_some tr T hx hp hv, rfl, ?_, Inv.resetTo I hx hp, rfl, rfl, rfl, ?_⟩
    · show absWith _ _ _ = _
      rw [abs_resetTo I hx hp]
      funext z; simp only [Spec.setVal, Spec.put]; split
      · rename_i e; subst e; simp [abs, absWith, hx, hp]
      · rfl
    · intro q hq
      show upd _ _ _ _ = _
      rw [upd_other]; rintro rfl; exact hq rfl

theorem put_put (σ : Spec.Boxes L A V) (x : L) (b c : Spec.Box A V) :
    Spec.put (Spec.put σ x b) x c = Spec.put σ x c := by
  funext z; simp only [Spec.put]; split <;> rfl

theorem refines_destroy {s : St L A R (Obj V)} (I : IInv tr s) {x : L} (hx : Spec.Live (abs s) x) :
    Refines tr (step tr (plain T) (.destroy x) s) (.ret .unit (Spec.drop (abs s) x)) := by
  obtain ⟨h, hh⟩ := abs_live hx
  obtain ⟨s', hr, h1, h2, h3, _⟩ := reset_cases (T := T) I hh
  have e : dtor tr (plain T) x s = .ok () { s' with hs := upd s'.hs x none } := by
    simp only [dtor, M.noexceptIf, M.bind_ok hr]
    rw [endLife_some (h := { h with p := none }) (by rw [h1]; simp)]
  simp only [step]
  rw [M.bind_ok e]
  refine ⟨rfl, ?_, Inv.kill h3 (h := { h with p := none }) (by rw [h1]; simp) rfl⟩
  show absWith _ (upd _ _ _) _ = _
  rw [abs_drop]
  show Spec.drop (abs s') x = _
  rw [h2]
  funext z; simp only [Spec.drop, Spec.setVal]; split <;> rfl

/-- A new object is built, then the old object of `x` is destroyed and the new one installed. -/
theorem refines_replace {s s₁ : St L A R (Obj V)} {x y : L} {t o : Handle A} {how : How} {b : Bool}
    {r : Except Exn V} {m : M (St L A R (Obj V)) Addr} (I : IInv tr s) (I₁ : IInv tr s₁)
    (hxy : x ≠ y) (hx : s.hs x = some t) (hy : s.hs y = some o) (hs₁ : s₁.hs = s.hs)
    (hp : memOk s = true → s₁.heap (s.env.pick s.ai) = none)
    (hm : m s = if memOk s then
        placed (tr.res (if b then o.alloc else t.alloc)) (s.env.pick s.ai) how s₁ r
      else .threw .badAlloc { s with ai := s.ai + 1 }) :
    Refines tr ((do
        let tmp ← m
        reset tr (plain T) x
        setP x (some tmp)
        if b then
          let o ← getH y
          setAlloc x o.alloc
        pure (.self x) : M _ (Out L A V)) s)
      (if memOk s then Spec.store (abs s₁) (.self x) x (if b then o.alloc else t.alloc) r
        else .threw .badAlloc (abs s)) := by
  rw [M.bind_eq, hm]
  by_cases h : memOk s = true
  · simp only [h, if_true]
    cases r with
    | error e => simpa [placed, Spec.store, Refines] using ⟨rfl, I₁⟩
    | ok v =>
      have hp := hp h
      simp only [placed, Spec.store]
      generalize ha : (if b = true then o.alloc else t.alloc) = a
      have key : ∀ s', s'.hs = upd s₁.hs x (some { t with p := none }) →
          Refines tr ((do
              setP x (some (s.env.pick s.ai))
              if b then
                let o ← getH y
                setAlloc x o.alloc
              pure (.self x) : M _ (Out L A V)) s')
            (.ret (.self x) (absWith (fun b => b) (upd s₁.hs x (some ⟨some (s.env.pick s.ai), a⟩)) s'.heap)) ∨
            ¬ Inv tr.res (fun _ b => b.isSome = true)
              (upd s₁.hs x (some ⟨some (s.env.pick s.ai), a⟩)) s'.heap := by
        intro s' hs'
        by_cases J : Inv tr.res (fun _ b => b.isSome = true)
              (upd s₁.hs x (some ⟨some (s.env.pick s.ai), a⟩)) s'.heap
        · left
          rw [M.bind_ok (setP_some (h := { t with p := none }) (by rw [hs']; simp) _)]
          cases b
          · simp only [Bool.false_eq_true, if_false] at ha ⊢
            subst ha
            simp only [Refines, pure_bind, M.pure_eq, true_and, abs]
            rw [hs', upd_upd]; exact ⟨rfl, by simpa [IInv] using J⟩
          · simp only [if_true] at ha ⊢
            subst ha
            have hy' : upd s'.hs x (some ⟨some (s.env.pick s.ai), t.alloc⟩) y = some o := by
              rw [upd_other _ _ (Ne.symm hxy), hs', upd_other _ _ (Ne.symm hxy), hs₁, hy]
            rw [M.bind_ok (getH_some hy'), M.bind_ok (setAlloc_some (upd_same _ _ _) _)]
            simp only [Refines, pure_bind, M.pure_eq, true_and, abs]
            rw [hs', upd_upd, upd_upd]; exact ⟨rfl, by simpa [IInv] using J⟩
        · right; exact J
      cases htp : t.p with
      | none =>
        rw [M.bind_ok (reset_null tr T (h := t) (by simp [hs₁, hx]) htp)]
        have J := Inv.fill I₁ (a := a) (b := some v) (hs₁ ▸ hx) htp hp rfl
        have := key { s₁ with heap := upd s₁.heap (s.env.pick s.ai) (some ⟨tr.res a, some v⟩), trace := s₁.trace ++ [.alloc (tr.res a) (s.env.pick s.ai), .construct (s.env.pick s.ai) how] }
          (by simp only; rw [upd_id]; rw [hs₁, hx, ← htp])
        rcases this with this | this
        · rw [abs_create I₁ hp] at this
          exact this
        · exact absurd J this
      | some q =>
        obtain ⟨w, hw⟩ := I₁.own' (hs₁ ▸ hx) htp
        have hqp : q ≠ s.env.pick s.ai := by rintro rfl; simp [hp] at hw
        rw [M.bind_ok (reset_some tr T (h := t) (p := q) (v := w) (by simp [hs₁, hx]) htp
          (by simp [upd_other _ _ hqp, hw]))]
        have hcomm : upd (upd s₁.heap (s.env.pick s.ai) (some ⟨tr.res a, some v⟩)) q none =
            upd (upd s₁.heap q none) (s.env.pick s.ai) (some ⟨tr.res a, some v⟩) := by
          funext z; simp only [upd]; grind
        have I₂ := Inv.resetTo (a := t.alloc) I₁ (hs₁ ▸ hx) htp
        have hp' : upd s₁.heap q none (s.env.pick s.ai) = none := by
          rw [upd_other _ _ (Ne.symm hqp), hp]
        have J := Inv.fill I₂ (a := a) (b := some v) (upd_same _ _ _) rfl hp' rfl
        rw [upd_upd] at J
        have K := key { s₁ with
            heap := upd (upd s₁.heap (s.env.pick s.ai) (some ⟨tr.res a, some v⟩)) q none
            hs := upd s₁.hs x (some { t with p := none })
            trace := s₁.trace ++ [.alloc (tr.res a) (s.env.pick s.ai), .construct (s.env.pick s.ai) how] ++
              [.destroy q, .dealloc (tr.res t.alloc) q] } rfl
        rcases K with K | K
        · simp only [hcomm] at K ⊢
          have e := abs_create (val := fun b => b) (r := tr.res a) (l := x) (a := a) (b := some v) I₂ hp'
          rw [upd_upd, abs_resetTo I₁ (hs₁ ▸ hx) htp, put_put] at e
          rw [e] at K
          exact K
        · simp only [hcomm] at K; exact absurd J K
  · simpa [h, Refines] using ⟨rfl, I⟩

theorem ite_bind {σ α β : Type} (c : Prop) [Decidable c] (m n : M σ α) (f : α → M σ β) :
    (if c then m else n) >>= f = if c then m >>= f else n >>= f := by split <;> rfl

/-- The end of both assignment operators: propagation of the allocator. -/
theorem tail_eval {b : Bool} {x y : L} {s : St L A R (Obj V)} {t o : Handle A} (out : Out L A V)
    (hx : s.hs x = some t) (hy : s.hs y = some o) :
    (if b = true then (do let o ← getH y; setAlloc x o.alloc; pure out) else pure out : M _ _) s =
      .ok out { s with hs := upd s.hs x (some { t with alloc := if b then o.alloc else t.alloc }) } := by
  cases b
  · simp only [Bool.false_eq_true, if_false, M.pure_eq]
    rw [upd_id]; exact hx
  · simp only [if_true]
    rw [M.bind_ok (getH_some hy), M.bind_ok (setAlloc_some hx _)]
    rfl

theorem reset_tail {b : Bool} {x y : L} {s : St L A R (Obj V)} {t o : Handle A} (I : IInv tr s)
    (hxy : x ≠ y) (hx : s.hs x = some t) (hy : s.hs y = some o) :
    Refines tr ((do
        reset tr (plain T) x
        if b = true then (do let o ← getH y; setAlloc x o.alloc; pure (.self x)) else pure (.self x)
        : M _ (Out L A V)) s)
      (.ret (.self x) (Spec.put (abs s) x ⟨if b then o.alloc else t.alloc, none⟩)) := by
  obtain ⟨s', hr, h1, h2, h3, _⟩ := reset_cases (T := T) I hx
  have hx' : s'.hs x = some { t with p := none } := by rw [h1]; simp
  rw [M.bind_ok hr, tail_eval (t := { t with p := none }) (o := o) _ hx'
    (by rw [h1, upd_other _ _ (Ne.symm hxy), hy])]
  refine ⟨rfl, ?_, Inv.setNull h3 hx' rfl⟩
  show absWith _ (upd _ _ _) _ = _
  rw [abs_createNull]
  show Spec.put (abs s') _ _ = _
  rw [h2]
  funext z; simp only [Spec.put, Spec.setVal]; split <;> simp_all

theorem plain_copyAssign {s : St L A R (Obj V)} {p q : Addr} {r r' : R} {d v : V}
    (hp : s.heap p = some ⟨r, some d⟩) (hq : s.heap q = some ⟨r', some v⟩) :
    (plain T).copyAssign p q s =
      rethrow (T.copyAssign d v (s.env.choice s.ti)).1 { s with
        heap := upd s.heap p (some ⟨r, some (T.copyAssign d v (s.env.choice s.ti)).2⟩)
        trace := s.trace ++ [.assign p (.copyOf q)]
        ti := s.ti + 1 } := by
  simp [plain, M.bind_eq, readObj, readBody, hp, hq, choose, emit, writeObj, writeBody]

theorem setVal_put {σ : Spec.Boxes L A V} {x : L} {b : Spec.Box A V} {v : Option V} (h : σ x = some b) :
    Spec.setVal σ x v = Spec.put σ x ⟨b.alloc, v⟩ := by
  funext z; simp only [Spec.setVal, Spec.put]; split <;> simp_all

theorem refines_assignCopy {s : St L A R (Obj V)} (S : tr.Sound) (I : IInv tr s) {x y : L}
    (hx : Spec.Live (abs s) x) (hy : Spec.Live (abs s) y) :
    Refines tr (step tr (plain T) (.assignCopy x y) s)
      (Spec.assignCopy tr T (memOk s) (s.env.choice s.ti) (abs s) x y) := by
  obtain ⟨t, ht⟩ := abs_live hx
  obtain ⟨o, ho⟩ := abs_live hy
  by_cases hxy : x = y
  · subst hxy
    simpa [step, assignCopy, Spec.assignCopy, M.bind_eq, Refines] using I
  simp only [step, assignCopy, hxy, if_false, bind_assoc, Spec.assignCopy, ite_bind, pure_bind]
  rw [M.bind_ok (valueless_eq ho)]
  cases hop : o.p with
  | none =>
    have hax : abs s x = some ⟨t.alloc, t.p.bind fun p => (s.heap p).bind fun c => c.body⟩ := by
      simp [abs, absWith, ht]
    simp only [abs_null ho hop, hax, beq_self_eq_true, if_true]
    exact reset_tail I hxy ht ho
  | some q =>
    obtain ⟨v, hv⟩ := I.own' ho hop
    simp only [abs_val ho hop hv, reduceCtorEq, beq_iff_eq, if_false]
    rw [M.bind_ok (getH_some ht), M.bind_ok (getH_some ho)]
    have replace := refines_replace (T := T) (b := tr.pocca) I
      (s₁ := { s with ai := s.ai + 1, ti := s.ti + 1 }) I hxy ht ho rfl memOk_heap
      (constructFrom_copy tr T (if tr.pocca then o.alloc else t.alloc) q s _ v hv)
    cases htp : t.p with
    | none =>
      simp only [abs_null ht htp, beq_self_eq_true, Bool.not_true, Bool.and_false, Bool.false_and,
        Bool.false_eq_true, if_false, store_build]
      rw [M.bind_ok (deref_some ho hop)]
      exact replace
    | some p =>
      obtain ⟨d, hd⟩ := I.own' ht htp
      simp only [abs_val ht htp hd]
      cases hc : (T.assignable && tr.eq t.alloc o.alloc)
      · have hc' : ((plain T : TOps (St L A R (Obj V)) A X).assignable && !(some p == none) &&
            tr.eq t.alloc o.alloc) = false := by
          simpa [plain] using hc
        simp only [hc', Bool.false_eq_true, if_false, store_build]
        rw [M.bind_ok (deref_some ho hop)]
        exact replace
      · have hc' : ((plain T : TOps (St L A R (Obj V)) A X).assignable && !(some p == none) &&
            tr.eq t.alloc o.alloc) = true := by
          simpa [plain] using hc
        have heq : tr.eq t.alloc o.alloc = true := by
          simp at hc; exact hc.2
        simp only [hc', if_true]
        rw [M.bind_ok (deref_some ht htp), M.bind_ok (deref_some ho hop), M.bind_eq,
          plain_copyAssign hd hv]
        have I' := Inv.write I (b' := some (T.copyAssign d v (s.env.choice s.ti)).2) hd rfl
        have e' := abs_moved (r := tr.res t.alloc) (v := (T.copyAssign d v (s.env.choice s.ti)).2) I ht htp
        rw [setVal_put (abs_val ht htp hd)] at e'
        rcases hca : T.copyAssign d v (s.env.choice s.ti) with ⟨_ | e, d'⟩
        · simp only [rethrow, M.pure_eq]
          rw [hca] at I' e'
          rw [tail_eval (s := { s with
              heap := upd s.heap p (some ⟨tr.res t.alloc, some d'⟩)
              trace := s.trace ++ [.assign p (.copyOf q)]
              ti := s.ti + 1 }) (t := t) (o := o) _ ht ho]
          refine ⟨rfl, ?_, Inv.realloc I' ht ?_⟩
          · show absWith _ (upd _ _ _) _ = _
            rw [abs_put, e', put_put]
            simp [htp]
          · split
            · exact (S.eq_res _ _ heq).symm
            · rfl
        · simp only [rethrow, M.throwE_eq]
          rw [hca] at I' e'
          exact ⟨rfl, e', I'⟩

theorem put_comm {σ : Spec.Boxes L A V} {x y : L} (h : x ≠ y) (b c : Spec.Box A V) :
    Spec.put (Spec.put σ x b) y c = Spec.put (Spec.put σ y c) x b := by
  funext z; simp only [Spec.put]; grind

theorem refines_assignMove {s : St L A R (Obj V)} (S : tr.Sound) (I : IInv tr s) {x y : L}
    (hx : Spec.Live (abs s) x) (hy : Spec.Live (abs s) y) :
    Refines tr (step tr (plain T) (.assignMove x y) s)
      (Spec.assignMove tr T (memOk s) (s.env.choice s.ti) (abs s) x y) := by
  obtain ⟨t, ht⟩ := abs_live hx
  obtain ⟨o, ho⟩ := abs_live hy
  by_cases hxy : x = y
  · subst hxy
    simpa [step, assignMove, Spec.assignMove, M.bind_eq, M.noexceptIf, Refines] using I
  have hax : abs s x = some ⟨t.alloc, t.p.bind fun p => (s.heap p).bind fun c => c.body⟩ := by
    simp [abs, absWith, ht]
  simp only [step, assignMove, noexceptIf_bind_pure]
  simp only [hxy, if_false, bind_assoc, ite_bind, pure_bind, Spec.assignMove, hax]
  cases hop : o.p with
  | none =>
    simp only [abs_null ho hop]
    refine refines_unwrap (r := .ret _ _) ?_
    rw [M.bind_ok (valueless_eq ho)]
    simp only [hop, beq_self_eq_true, if_true]
    exact reset_tail I hxy ht ho
  | some q =>
    obtain ⟨v, hv⟩ := I.own' ho hop
    simp only [abs_val ho hop hv]
    cases heq : tr.eq t.alloc o.alloc
    · simp only [Bool.false_eq_true, if_false]
      have I₁ := Inv.write I (b' := some (T.move v (s.env.choice s.ti)).2) hv rfl
      have replace := refines_replace (T := T) (b := tr.pocma) I
        (s₁ := { s with
          heap := upd s.heap q (some ⟨tr.res o.alloc, some (T.move v (s.env.choice s.ti)).2⟩),
          ai := s.ai + 1, ti := s.ti + 1 }) I₁ hxy ht ho rfl (moved_fresh hv)
        (constructFrom_move tr T (if tr.pocma then o.alloc else t.alloc) q s _ v hv)
      have e := abs_moved (r := tr.res o.alloc) (v := (T.move v (s.env.choice s.ti)).2) I ho hop
      simp only [abs] at e replace ⊢
      rw [e] at replace
      have := refines_unwrap (b := tr.pocma || tr.alwaysEqual) replace
      have hs : ∀ (c : Prop) [Decidable c] (r₁ r₂ : Spec.Result L A V),
          Spec.noexceptIf (tr.pocma || tr.alwaysEqual) (if c then r₁ else r₂) =
          if c then Spec.noexceptIf (tr.pocma || tr.alwaysEqual) r₁
          else Spec.noexceptIf (tr.pocma || tr.alwaysEqual) r₂ := by
        intros; split <;> rfl
      rw [hs] at this
      simp only [M.noexceptIf] at this ⊢
      rw [M.bind_ok (valueless_eq ho)]
      simp only [hop, Option.some_beq_none, Bool.false_eq_true, if_false]
      rw [M.bind_ok (getH_some ht), M.bind_ok (getH_some ho)]
      simp only [heq, Bool.false_eq_true, if_false]
      rw [M.bind_ok (deref_some ho hop)]
      exact this
    · simp only [if_true]
      refine refines_unwrap (r := .ret _ _) ?_
      have hr := S.eq_res _ _ heq
      rw [M.bind_ok (valueless_eq ho)]
      simp only [hop, Option.some_beq_none, Bool.false_eq_true, if_false]
      rw [M.bind_ok (getH_some ht), M.bind_ok (getH_some ho)]
      simp only [heq, if_true]
      rw [M.bind_ok (setP_some ht _),
        M.bind_ok (setP_some (h := o) (by simp [upd_other _ _ (Ne.symm hxy), ho]) _)]
      have I₂ : Inv tr.res _ (upd (upd s.hs x (some ⟨o.p, t.alloc⟩)) y (some ⟨t.p, o.alloc⟩)) s.heap :=
        Inv.swapTo I ht ho hr hr.symm
      obtain ⟨s', h0, h1, h2, h3, _⟩ := reset_cases (T := T) (s := { s with
        hs := upd (upd s.hs x (some ⟨o.p, t.alloc⟩)) y (some ⟨t.p, o.alloc⟩) }) I₂ (upd_same _ _ _)
      dsimp only at h1 ⊢
      rw [M.bind_ok h0]
      rw [hop] at h1 h2
      have hx' : s'.hs x = some ⟨some q, t.alloc⟩ := by
        rw [h1]; simp [upd_other _ _ hxy]
      have hy' : s'.hs y = some ⟨none, o.alloc⟩ := by
        rw [h1]; simp
      rw [tail_eval _ hx' hy']
      refine ⟨rfl, ?_, Inv.realloc h3 hx' ?_⟩
      · show absWith _ (upd _ _ _) _ = _
        rw [abs_put]
        have hq : abs s' x = some ⟨t.alloc, some v⟩ := by
          rw [h2]
          simp [Spec.setVal, hxy, abs, absWith, upd_other _ _ hxy, hv]
        have hq' : (s'.heap q).bind (fun c => c.body) = some v := by
          simpa [abs, absWith, hx'] using hq
        show Spec.put (abs s') _ _ = _
        rw [h2]
        funext z
        simp only [Spec.put, Spec.setVal, abs, absWith]
        by_cases hzx : z = x
        · simp [hzx, hq']
        · by_cases hzy : z = y
          · simp [hzy, Ne.symm hxy]
          · simp [hzx, hzy, upd_other]
      · show tr.res _ = tr.res t.alloc
        split
        · exact hr.symm
        · rfl

/-- The result of `constructFrom`, put into an existing valueless object. -/
theorem refines_fill {s s₁ : St L A R (Obj V)} {x : L} {t : Handle A} {how : How} {r : Except Exn V}
    {m : M (St L A R (Obj V)) Addr} (I : IInv tr s) (I₁ : IInv tr s₁)
    (hx₁ : s₁.hs x = some t) (hn : t.p = none)
    (hp : memOk s = true → s₁.heap (s.env.pick s.ai) = none)
    (hm : m s = if memOk s then placed (tr.res t.alloc) (s.env.pick s.ai) how s₁ r
      else .threw .badAlloc { s with ai := s.ai + 1 }) :
    Refines tr ((do let p ← m; setP x (some p); pure (.self x) : M _ (Out L A V)) s)
      (if memOk s then Spec.store (abs s₁) (.self x) x t.alloc r else .threw .badAlloc (abs s)) := by
  rw [M.bind_eq, hm]
  by_cases h : memOk s = true
  · simp only [h, if_true]
    cases r with
    | ok v =>
      simp only [placed, M.bind_eq, setP, hx₁, Spec.store, M.pure_eq, Refines, true_and]
      exact ⟨abs_create I₁ (hp h), Inv.fill I₁ hx₁ hn (hp h) rfl⟩
    | error e => simpa [placed, Spec.store, Refines] using ⟨rfl, I₁⟩
  · simpa [h, Refines] using ⟨rfl, I⟩

theorem refines_assigned {s : St L A R (Obj V)} {x : L} {t : Handle A} {p : Addr} {r : R} {d : V}
    {r' : Option Exn × V} {trc : List (Ev R)} {n : Nat} (I : IInv tr s) (ht : s.hs x = some t) (htp : t.p = some p)
    (hd : s.heap p = some ⟨r, some d⟩) :
    Refines tr ((do rethrow r'.1; pure (.self x) : M _ (Out L A V))
        { s with heap := upd s.heap p (some ⟨r, some r'.2⟩), trace := trc, ti := n })
      (match r' with
        | (none, d') => .ret (.self x) (Spec.setVal (abs s) x (some d'))
        | (some e, d') => .threw e (Spec.setVal (abs s) x (some d'))) := by
  have I' := Inv.write I (b' := some r'.2) hd rfl
  have e' := abs_moved (r := r) (v := r'.2) I ht htp
  rcases r' with ⟨_ | e, d'⟩
  · exact ⟨rfl, e', I'⟩
  · exact ⟨rfl, e', I'⟩

theorem moved_alive {heap : Addr → Option (Cell R (Obj V))} {p q : Addr} {r r' : R} {d v w : V}
    (hd : heap p = some ⟨r, some d⟩) (hv : heap q = some ⟨r', some v⟩) :
    ∃ d', upd heap q (some ⟨r', some w⟩) p = some ⟨r, some d'⟩ := by
  by_cases e : p = q
  · subst e; rw [hd] at hv; simp at hv; exact ⟨w, by rw [upd_same, hv.1]⟩
  · exact ⟨d, by rw [upd_other _ _ e, hd]⟩

theorem plain_moveAssign {s : St L A R (Obj V)} {p q : Addr} {r r' : R} {d v : V}
    (hd : s.heap p = some ⟨r, some d⟩) (hv : s.heap q = some ⟨r', some v⟩) :
    (plain T).moveAssign p q s = rethrow (T.moveAssign d v (s.env.choice s.ti)).1
      { s with
        heap := upd (upd s.heap q (some ⟨r', some (T.moveAssign d v (s.env.choice s.ti)).2.2⟩)) p
          (some ⟨r, some (T.moveAssign d v (s.env.choice s.ti)).2.1⟩)
        trace := s.trace ++ [.assign p (.moveOf q)]
        ti := s.ti + 1 } := by
  obtain ⟨d', hd'⟩ := moved_alive (w := (T.moveAssign d v (s.env.choice s.ti)).2.2) hd hv
  simp [plain, M.bind_eq, readObj, readBody, hd, hv, choose, emit, writeObj, writeBody, hd']

theorem refines_assignFrom {s : St L A R (Obj V)} (I : IInv tr s) {x : L} {u : Src L X}
    (hx : Spec.Live (abs s) x) (hu : Spec.LegalSrc (abs s) u) :
    Refines tr (step tr (plain T) (.assignFrom x u) s)
      (Spec.assignFrom T (memOk s) (s.env.choice s.ti) (abs s) x u) := by
  obtain ⟨t, ht⟩ := abs_live hx
  simp only [step, assignFrom, bind_assoc, ite_bind, pure_bind]
  cases htp : t.p with
  | none =>
    simp only [Spec.assignFrom, abs_null ht htp]
    have pre : ∀ f, evalSrc u s = .ok f s → (evalSrc u >>= fun u => valueless x >>= fun b => if b = true then
            getH x >>= fun t => constructFrom tr t.alloc (fun a m => (plain T).makeFwd a m u) >>=
              fun p => setP x (some p) >>= fun _ => pure (.self x)
          else deref x >>= fun d => (plain T).assignFwd d u >>= fun _ => pure (.self x) : M _ (Out L A V)) s =
        (do
          let p ← constructFrom tr t.alloc (fun a m => (plain T).makeFwd a m f)
          setP x (some p); pure (.self x) : M _ (Out L A V)) s := by
      intro f hf
      rw [M.bind_ok hf, M.bind_ok (valueless_eq ht)]
      simp only [htp, beq_self_eq_true, if_true]
      rw [M.bind_ok (getH_some ht)]
    cases u with
    | arg w =>
      rw [pre (.arg w) rfl]
      simp only [Spec.buildFrom, store_build]
      exact refines_fill I (s₁ := { s with ai := s.ai + 1, ti := s.ti + 1 }) I ht htp memOk_heap
        (constructFrom_make tr T t.alloc (.pack [w]) s)
    | lval y =>
      obtain ⟨v, hv⟩ := hu
      obtain ⟨k, p, r, hk, hp, hh⟩ := abs_valueOf hv
      rw [pre _ (evalSrc_lval hk hp)]
      simp only [Spec.buildFrom, hv, store_build]
      exact refines_fill I (s₁ := { s with ai := s.ai + 1, ti := s.ti + 1 }) I ht htp memOk_heap
        (constructFrom_copy tr T t.alloc p s _ v hh)
    | rval y =>
      obtain ⟨v, hv⟩ := hu
      obtain ⟨k, p, r, hk, hp, hh⟩ := abs_valueOf hv
      rw [pre _ (evalSrc_rval hk hp)]
      simp only [Spec.buildFrom, hv]
      have I₁ := Inv.write I (b' := some (T.move v (s.env.choice s.ti)).2) hh rfl
      have := refines_fill I (s₁ := { s with
          heap := upd s.heap p (some ⟨r, some (T.move v (s.env.choice s.ti)).2⟩),
          ai := s.ai + 1, ti := s.ti + 1 }) I₁ ht htp (moved_fresh hh)
        (constructFrom_move tr T t.alloc p s r v hh)
      have e := abs_moved (r := r) (v := (T.move v (s.env.choice s.ti)).2) I hk hp
      simp only [abs] at e this ⊢
      rw [e] at this
      cases hm : memOk s <;> simp only [hm] at this <;> exact this
  | some p =>
    obtain ⟨d, hd⟩ := I.own' ht htp
    simp only [Spec.assignFrom, abs_val ht htp hd]
    have pre : ∀ f, evalSrc u s = .ok f s → (evalSrc u >>= fun u => valueless x >>= fun b => if b = true then
            getH x >>= fun t => constructFrom tr t.alloc (fun a m => (plain T).makeFwd a m u) >>=
              fun p => setP x (some p) >>= fun _ => pure (.self x)
          else deref x >>= fun d => (plain T).assignFwd d u >>= fun _ => pure (.self x) : M _ (Out L A V)) s =
        ((plain T).assignFwd p f >>= fun _ => pure (.self x) : M _ (Out L A V)) s := by
      intro f hf
      rw [M.bind_ok hf, M.bind_ok (valueless_eq ht)]
      simp only [htp, Option.some_beq_none, Bool.false_eq_true, if_false]
      rw [M.bind_ok (deref_some ht htp)]
    cases u with
    | arg w =>
      rw [pre (.arg w) rfl]
      have := refines_assigned (r' := T.assignArg d w (s.env.choice s.ti))
        (trc := s.trace ++ [.assign p .args]) (n := s.ti + 1) I ht htp hd
      simp only [Spec.assignValue]
      have h' : (plain T).assignFwd p (.arg w) s = rethrow (T.assignArg d w (s.env.choice s.ti)).1
          { s with
            heap := upd s.heap p (some ⟨tr.res t.alloc, some (T.assignArg d w (s.env.choice s.ti)).2⟩)
            trace := s.trace ++ [.assign p .args]
            ti := s.ti + 1 } := by
        simp [TOps.assignFwd, plain, M.bind_eq, readObj, readBody, hd, choose, emit, writeObj, writeBody]
      rw [M.bind_eq, h']
      exact this
    | lval y =>
      obtain ⟨v, hv⟩ := hu
      obtain ⟨k, q, r, hk, hp, hh⟩ := abs_valueOf hv
      rw [pre _ (evalSrc_lval hk hp)]
      simp only [Spec.assignValue, hv, TOps.assignFwd]
      have := refines_assigned (r' := T.copyAssign d v (s.env.choice s.ti))
        (trc := s.trace ++ [.assign p (.copyOf q)]) (n := s.ti + 1) I ht htp hd
      rw [M.bind_eq, plain_copyAssign hd hh]
      exact this
    | rval y =>
      obtain ⟨v, hv⟩ := hu
      obtain ⟨k, q, r, hk, hp, hh⟩ := abs_valueOf hv
      rw [pre _ (evalSrc_rval hk hp)]
      simp only [Spec.assignValue, hv, TOps.assignFwd]
      have I₁ : IInv tr { s with heap := upd s.heap q (some ⟨r, some (T.moveAssign d v (s.env.choice s.ti)).2.2⟩) } :=
        Inv.write I (b' := some (T.moveAssign d v (s.env.choice s.ti)).2.2) hh rfl
      have e : abs { s with heap := upd s.heap q (some ⟨r, some (T.moveAssign d v (s.env.choice s.ti)).2.2⟩) } = _ := abs_moved (r := r) (v := (T.moveAssign d v (s.env.choice s.ti)).2.2) I hk hp
      obtain ⟨d₁, hd₁⟩ := moved_alive (w := (T.moveAssign d v (s.env.choice s.ti)).2.2) hd hh
      have := refines_assigned (x := x) (s := { s with heap := upd s.heap q (some ⟨r, some (T.moveAssign d v (s.env.choice s.ti)).2.2⟩) })
        (r' := ((T.moveAssign d v (s.env.choice s.ti)).1, (T.moveAssign d v (s.env.choice s.ti)).2.1))
        (trc := s.trace ++ [.assign p (.moveOf q)]) (n := s.ti + 1) I₁ ht htp hd₁
      rw [e] at this
      rw [M.bind_eq, plain_moveAssign hd hh]
      rw [M.bind_eq] at this
      rcases hc : T.moveAssign d v (s.env.choice s.ti) with ⟨_ | e, d', v'⟩ <;> rw [hc] at this <;> exact this

theorem refines_read {s : St L A R (Obj V)} (I : IInv tr s) {x : L} {m : M (St L A R (Obj V)) Addr}
    (hm : ∀ p k, s.hs x = some k → k.p = some p → m s = .ok p s)
    (hx : Spec.Engaged (abs s) x) :
    Refines tr ((do let p ← m; let v ← readObj p; pure (.value v) : M _ (Out L A V)) s)
      (match Spec.valueOf (abs s) x with
        | some v => .ret (.value v) (abs s)
        | none => .illegal) := by
  obtain ⟨v, hv⟩ := hx
  obtain ⟨k, p, r, hk, hp, hh⟩ := abs_valueOf hv
  simp only [hv]
  rw [M.bind_ok (hm p k hk hp)]
  simpa [M.bind_eq, readObj, readBody, hh, Refines] using I

theorem refines_swap {s : St L A R (Obj V)} (S : tr.Sound) (I : IInv tr s) {x y : L}
    (h : Spec.LegalSwap tr (abs s) x y) :
    Refines tr (step tr (plain T) (.swap x y) s) (Spec.swap tr (abs s) x y) := by
  obtain ⟨bx, bcy, hbx, hbcy, hor⟩ := h
  obtain ⟨t, ht, hta, htv⟩ := abs_some hbx
  obtain ⟨o, ho, hoa, hov⟩ := abs_some hbcy
  simp only [step, swap]
  have e : ∀ b : M (St L A R (Obj V)) Unit, (do let r ← M.noexceptIf (tr.pocs || tr.alwaysEqual) b; pure (.unit : Out L A V) : M (St L A R (Obj V)) _) =
      M.noexceptIf (tr.pocs || tr.alwaysEqual) (do let r ← b; pure .unit) := fun b =>
    noexceptIf_bind_pure b (fun _ => Out.unit)
  rw [e]
  simp only [Spec.swap, hbx, hbcy]
  have hsw : Spec.put (Spec.put (abs s) x ⟨bx.alloc, bcy.val⟩) y ⟨bcy.alloc, bx.val⟩ =
      absWith (fun b => b) (upd (upd s.hs x (some ⟨o.p, t.alloc⟩)) y (some ⟨t.p, o.alloc⟩)) s.heap := by
    rw [abs_put, abs_put, hta, hoa, htv, hov]; rfl
  have hsw' : Spec.put (Spec.put (abs s) x bcy) y bx =
      absWith (fun b => b) (upd (upd s.hs x (some ⟨o.p, o.alloc⟩)) y (some ⟨t.p, t.alloc⟩)) s.heap := by
    rw [abs_put, abs_put]
    cases bx; cases bcy; simp only at hta hoa htv hov ⊢; subst hta hoa htv hov; rfl
  cases hps : tr.pocs
  · have heq : tr.eq t.alloc o.alloc = true := by simpa [hps, hta, hoa] using hor
    have hr := S.eq_res _ _ heq
    simp only [Bool.false_eq_true, if_false]
    refine refines_unwrap (r := .ret _ _) ?_
    simp only [bind_assoc]
    rw [M.bind_ok (getH_some ht), M.bind_ok (getH_some ho)]
    simp only [heq, if_true, bind_assoc, hsw]
    by_cases hxy : x = y
    · subst hxy
      have : t = o := by rw [ht] at ho; simpa using ho
      subst this
      rw [M.bind_ok (setP_some ht _), M.bind_ok (setP_some (upd_same _ _ _) _)]
      refine ⟨rfl, ?_, ?_⟩
      · simp [abs]
      · simp only [upd_upd]; rw [upd_id]; exact I; exact ht
    · rw [M.bind_ok (setP_some ht _),
        M.bind_ok (setP_some (h := o) (by simp [upd_other _ _ (Ne.symm hxy), ho]) _)]
      exact ⟨rfl, rfl, Inv.swapTo I ht ho hr hr.symm⟩
  · simp only [if_true]
    refine refines_unwrap (r := .ret _ _) ?_
    simp only [bind_assoc]
    rw [M.bind_ok (getH_some ht), M.bind_ok (getH_some ho)]
    simp only [bind_assoc, hsw']
    by_cases hxy : x = y
    · subst hxy
      have : t = o := by rw [ht] at ho; simpa using ho
      subst this
      rw [M.bind_ok (setAlloc_some ht _), M.bind_ok (setAlloc_some (upd_same _ _ _) _),
        M.bind_ok (setP_some (upd_same _ _ _) _), M.bind_ok (setP_some (upd_same _ _ _) _)]
      refine ⟨rfl, ?_, ?_⟩
      · simp [abs]
      · simp only [upd_upd]; rw [upd_id]; exact I; exact ht
    · rw [M.bind_ok (setAlloc_some ht _),
        M.bind_ok (setAlloc_some (h := o) (by simp [upd_other _ _ (Ne.symm hxy), ho]) _),
        M.bind_ok (setP_some (h := ⟨t.p, o.alloc⟩) (by simp [upd_other _ _ hxy]) _),
        M.bind_ok (setP_some (h := ⟨o.p, t.alloc⟩) (by simp [upd_other _ _ (Ne.symm hxy)]) _)]
      have : upd (upd (upd (upd s.hs x (some ⟨t.p, o.alloc⟩)) y (some ⟨o.p, t.alloc⟩)) x (some ⟨o.p, o.alloc⟩))
          y (some ⟨t.p, t.alloc⟩) =
          upd (upd s.hs x (some ⟨o.p, o.alloc⟩)) y (some ⟨t.p, t.alloc⟩) := by
        funext z; simp only [upd]; grind
      refine ⟨rfl, ?_, ?_⟩
      · simp only [abs, this]
      · have J := Inv.swapTo (a := o.alloc) (b := t.alloc) I ht ho rfl rfl
        rw [← this] at J
        exact J

/-- The main refinement theorem for single calls. -/
theorem step_refines {s : St L A R (Obj V)} (S : tr.Sound) (I : IInv tr s) {o : Op L A V X}
    (h : Spec.Legal tr (abs s) o) :
    Refines tr (step tr (plain T) o s) (Spec.step tr T (memOk s) (s.env.choice s.ti) (abs s) o) := by
  cases o with
  | make x a c => exact refines_make I c (abs_dead h.1) h.2
  | copy x y =>
    obtain ⟨k, hk⟩ := abs_live h.2
    have := refines_copyA (T := T) (a := tr.socc k.alloc) I (abs_dead h.1) h.2
    simp only [step, ctorCopy, bind_assoc, Spec.step]
    rw [M.bind_ok (getH_some hk)]
    simp only [show abs s y = some ⟨k.alloc, k.p.bind fun p => (s.heap p).bind fun c => c.body⟩ by
      simp [abs, absWith, hk]]
    exact this
  | copyA x a y => exact refines_copyA I (abs_dead h.1) h.2
  | move x y =>
    obtain ⟨k, hk⟩ := abs_live h.2
    have := refines_moveA (T := T) (a := k.alloc) S I (abs_dead h.1) h.2
    simp only [step, ctorMove, Spec.step]
    simp only [show abs s y = some ⟨k.alloc, k.p.bind fun p => (s.heap p).bind fun c => c.body⟩ by
      simp [abs, absWith, hk]]
    rw [← spec_noexceptIf_idem]
    apply refines_noexcept
    simp only [bind_assoc]
    rw [M.bind_ok (getH_some hk)]
    exact this
  | moveA x a y => exact refines_moveA S I (abs_dead h.1) h.2
  | destroy x => exact refines_destroy I h
  | assignCopy x y => exact refines_assignCopy S I h.1 h.2
  | assignMove x y => exact refines_assignMove S I h.1 h.2
  | assignFrom x u => exact refines_assignFrom I h.1 h.2
  | deref x => exact refines_read I (fun p k hk hp => deref_some hk hp) h
  | arrow x => exact refines_read I (fun p k hk hp => by simp [arrow, M.bind_eq, getH, hk, hp]) h
  | modify x f =>
    obtain ⟨v, hv⟩ := h
    obtain ⟨k, p, r, hk, hp, hh⟩ := abs_valueOf hv
    simp only [step, Spec.step, hv]
    rw [M.bind_ok (deref_some hk hp)]
    have I' := Inv.write I (b' := some (f v)) hh rfl
    have e' := abs_moved (r := r) (v := f v) I hk hp
    simpa [M.bind_eq, readObj, readBody, hh, writeObj, writeBody, Refines] using ⟨e', I'⟩
  | valueless x =>
    obtain ⟨k, hk⟩ := abs_live h
    simp only [step, Spec.step]
    rw [M.bind_ok (valueless_eq hk)]
    cases hp : k.p with
    | none => simpa [abs_null hk hp, Refines] using I
    | some p =>
      obtain ⟨v, hv⟩ := I.own' hk hp
      simpa [abs_val hk hp hv, Refines] using I
  | getAllocator x =>
    obtain ⟨k, hk⟩ := abs_live h
    simp only [step, Spec.step, getAllocator, bind_assoc]
    rw [M.bind_ok (getH_some hk)]
    simp only [show abs s x = some ⟨k.alloc, k.p.bind fun p => (s.heap p).bind fun c => c.body⟩ by
      simp [abs, absWith, hk]]
    simpa [Refines] using I
  | swap x y => exact refines_swap S I h
  | friendSwap x y =>
    have := refines_swap (T := T) S I h
    simp only [step, Spec.step, friendSwap] at this ⊢
    have e : (do let r ← M.noexceptIf (tr.pocs || tr.alwaysEqual) (swap tr x y); pure (.unit : Out L A V) : M (St L A R (Obj V)) _) =
      M.noexceptIf (tr.pocs || tr.alwaysEqual) (do let r ← swap tr x y; pure .unit) :=
      noexceptIf_bind_pure _ (fun _ => Out.unit)
    rw [e]
    have := refines_unwrap (b := tr.pocs || tr.alwaysEqual) this
    have hi : Spec.noexceptIf (tr.pocs || tr.alwaysEqual) (Spec.swap tr (abs s) x y) = Spec.swap tr (abs s) x y := by
      unfold Spec.swap; split
      · split <;> rfl
      · rfl
    rw [hi] at this
    exact this

end
end Verif.Indirect
