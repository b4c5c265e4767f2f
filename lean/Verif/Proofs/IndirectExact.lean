import Verif.Proofs.IndirectRefine
import Verif.Spec.Run

/-! Exact final states of every call on `indirect` objects. -/

set_option autoImplicit false
set_option linter.unusedSectionVars false
set_option linter.unusedSimpArgs false

attribute [-simp] bind_pure_comp

namespace Verif.Indirect
open Verif

section
variable {L A R V X : Type} [DecidableEq L] [DecidableEq R]
variable {tr : ATraits A R} {T : TSpec V X}

/-- The heap without the block of `h`. -/
def freedHeap (heap : Addr → Option (Cell R (Obj V))) (h : Handle A) : Addr → Option (Cell R (Obj V)) :=
  match h.p with
  | none => heap
  | some p => upd heap p none

/-- What is recorded when the object owned by `h` is released. -/
def freedEvents (tr : ATraits A R) (h : Handle A) : List (Ev R) :=
  match h.p with
  | none => []
  | some p => [.destroy p, .dealloc (tr.res h.alloc) p]

theorem reset_eval {s : St L A R (Obj V)} {l : L} {h : Handle A} (e : s.hs l = some h)
    (hh : ∀ p, h.p = some p → ∃ v, s.heap p = some ⟨tr.res h.alloc, some v⟩) :
    reset tr (plain T) l s = .ok () { s with
      heap := freedHeap s.heap h
      hs := upd s.hs l (some { h with p := none })
      trace := s.trace ++ freedEvents tr h } := by
  cases hp : h.p with
  | none =>
    rw [reset_null tr T e hp]
    simp only [freedHeap, freedEvents, hp, List.append_nil]
    rw [upd_id]; rw [e, ← hp]
  | some p =>
    obtain ⟨v, hv⟩ := hh p hp
    rw [reset_some tr T e hp hv]
    simp [freedHeap, freedEvents, hp]

/-- `make` -/
def madeFrom (x : L) (a : A) (out : Out L A V) (how : How) (r : R) (p : Addr) (s : St L A R (Obj V)) :
    Except Exn V → Res (St L A R (Obj V)) (Out L A V)
  | .ok v => .ok out { s with
      hs := upd s.hs x (some ⟨some p, a⟩)
      heap := upd s.heap p (some ⟨r, some v⟩)
      trace := s.trace ++ [.alloc r p, .construct p how] }
  | .error e => .threw e { s with trace := s.trace ++ [.alloc r p, .dealloc r p] }

theorem emplace_eval {s s₁ : St L A R (Obj V)} {x : L} {a : A} {how : How} {r : Except Exn V}
    {m : M (St L A R (Obj V)) Addr} (hx₁ : s₁.hs x = none)
    (hm : m s = if memOk s then placed (tr.res a) (s.env.pick s.ai) how s₁ r
      else .threw .badAlloc { s with ai := s.ai + 1 }) :
    (do let p ← m; emplace x ⟨some p, a⟩; pure .unit : M _ (Out L A V)) s =
      if memOk s then madeFrom x a .unit how (tr.res a) (s.env.pick s.ai) s₁ r
      else .threw .badAlloc { s with ai := s.ai + 1 } := by
  rw [M.bind_eq, hm]
  by_cases h : memOk s = true
  · simp only [h, if_true]
    cases r with
    | ok v => simp only [placed, M.bind_eq, emplace, hx₁, M.pure_eq, madeFrom]
    | error e => simp only [placed, madeFrom]
  · simp [h]

/-- The state after the counters moved. -/
abbrev bump (s : St L A R (Obj V)) : St L A R (Obj V) := { s with ai := s.ai + 1, ti := s.ti + 1 }

/-- The state after the source of a move was changed. -/
abbrev leave (s : St L A R (Obj V)) (q : Addr) (r : R) (v : V) : St L A R (Obj V) :=
  { s with heap := upd s.heap q (some ⟨r, some v⟩), ai := s.ai + 1, ti := s.ti + 1 }

theorem noexceptIf_false {σ α : Type} (m : M σ α) : M.noexceptIf false m = m := by
  funext s; simp only [M.noexceptIf]; cases m s <;> rfl

theorem noexceptIf_ok {σ α : Type} {b : Bool} {m : M σ α} {s s' : σ} {a : α} (h : m s = .ok a s') :
    M.noexceptIf b m s = .ok a s' := by simp only [M.noexceptIf, h]

theorem copyA_eval {s : St L A R (Obj V)} {x y : L} {a : A} {k : Handle A} {q : Addr} {r : R} {v : V}
    (hx : s.hs x = none) (hk : s.hs y = some k) (hq : k.p = some q) (hv : s.heap q = some ⟨r, some v⟩) :
    step tr (plain T) (.copyA x a y) s =
      if memOk s then madeFrom x a .unit (.copyOf q) (tr.res a) (s.env.pick s.ai) (bump s)
        (T.copy v (s.env.choice s.ti))
      else .threw .badAlloc { s with ai := s.ai + 1 } := by
  simp only [step, ctorCopyA, bind_assoc]
  rw [M.bind_ok (valueless_eq hk)]
  simp only [hq, reduceCtorEq, bne_iff_ne, beq_iff_eq, if_false, bind_assoc, pure_bind]
  rw [M.bind_ok (deref_some hk hq)]
  exact emplace_eval hx (constructFrom_copy tr T a q s _ v hv)

theorem copyA_null {s : St L A R (Obj V)} {x y : L} {a : A} {k : Handle A}
    (hx : s.hs x = none) (hk : s.hs y = some k) (hq : k.p = none) :
    step tr (plain T) (.copyA x a y) s = .ok .unit { s with hs := upd s.hs x (some ⟨none, a⟩) } := by
  simp only [step, ctorCopyA, bind_assoc]
  rw [M.bind_ok (valueless_eq hk)]
  simp [hq, M.bind_eq, emplace, hx]

theorem copy_copyA {s : St L A R (Obj V)} {x y : L} {k : Handle A} (hk : s.hs y = some k) :
    step tr (plain T) (.copy x y) s = step tr (plain T) (.copyA x (tr.socc k.alloc) y) s := by
  simp only [step, ctorCopy, bind_assoc]
  rw [M.bind_ok (getH_some hk)]

theorem noexcept_emplace {b : Bool} {m : M (St L A R (Obj V)) (Handle A)} {x : L} {s : St L A R (Obj V)} :
    (do let h ← M.noexceptIf b m; emplace x h; pure .unit : M _ (Out L A V)) s =
      M.noexceptIf b (do let h ← m; emplace x h; pure .unit : M _ (Out L A V)) s := by
  simp only [M.bind_eq, M.noexceptIf]
  cases m s with
  | ok h s' => cases hx : s'.hs x <;> simp [emplace, hx]
  | threw e s' => cases b <;> rfl
  | terminated => rfl
  | ub u => rfl
  | diverged => rfl

theorem moveA_steal {s : St L A R (Obj V)} {x y : L} {a : A} {k : Handle A}
    (hx : s.hs x = none) (hk : s.hs y = some k) (h : tr.alwaysEqual = true ∨ tr.eq a k.alloc = true) :
    step tr (plain T) (.moveA x a y) s = .ok .unit { s with
      hs := upd (upd s.hs y (some { k with p := none })) x (some ⟨k.p, a⟩) } := by
  have hxy : x ≠ y := by rintro rfl; simp [hx] at hk
  simp only [step, ctorMoveA]
  rw [noexcept_emplace]
  simp only [M.noexceptIf, bind_assoc]
  rw [M.bind_ok (getH_some hk)]
  have e : (do setP y none; emplace x ⟨k.p, a⟩; pure .unit : M (St L A R (Obj V)) (Out L A V)) s = .ok .unit { s with
      hs := upd (upd s.hs y (some { k with p := none })) x (some ⟨k.p, a⟩) } := by
    rw [M.bind_ok (setP_some hk none), M.bind_ok (emplace_none (by simp [upd_other _ _ hxy, hx]) _)]
    rfl
  cases hae : tr.alwaysEqual
  · have heq : tr.eq a k.alloc = true := by simpa [hae] using h
    simp only [hae, heq, Bool.false_eq_true, if_false, if_true, bind_assoc, pure_bind]
    rw [e]
  · simp only [hae, if_true, bind_assoc, pure_bind]
    rw [e]

theorem moveA_null {s : St L A R (Obj V)} {x y : L} {a : A} {k : Handle A}
    (hx : s.hs x = none) (hk : s.hs y = some k) (hq : k.p = none)
    (h : tr.alwaysEqual = false) (h' : tr.eq a k.alloc = false) :
    step tr (plain T) (.moveA x a y) s = .ok .unit { s with hs := upd s.hs x (some ⟨none, a⟩) } := by
  simp only [step, ctorMoveA]
  rw [noexcept_emplace]
  simp only [M.noexceptIf, bind_assoc]
  rw [M.bind_ok (getH_some hk)]
  simp only [h, h', Bool.false_eq_true, if_false, bind_assoc]
  rw [M.bind_ok (valueless_eq hk)]
  simp [hq, M.bind_eq, emplace, hx]

theorem moveA_eval {s : St L A R (Obj V)} {x y : L} {a : A} {k : Handle A} {q : Addr} {r : R} {v : V}
    (hx : s.hs x = none) (hk : s.hs y = some k) (hq : k.p = some q) (hv : s.heap q = some ⟨r, some v⟩)
    (h : tr.alwaysEqual = false) (h' : tr.eq a k.alloc = false) :
    step tr (plain T) (.moveA x a y) s =
      if memOk s then madeFrom x a .unit (.moveOf q) (tr.res a) (s.env.pick s.ai)
        (leave s q r (T.move v (s.env.choice s.ti)).2) (T.move v (s.env.choice s.ti)).1
      else .threw .badAlloc { s with ai := s.ai + 1 } := by
  simp only [step, ctorMoveA]
  rw [noexcept_emplace]
  rw [h, noexceptIf_false]
  simp only [bind_assoc]
  rw [M.bind_ok (getH_some hk)]
  simp only [h, h', Bool.false_eq_true, if_false, bind_assoc]
  rw [M.bind_ok (valueless_eq hk)]
  simp only [hq, Option.bind_some, reduceCtorEq, beq_eq_false_iff_ne, ne_eq, not_false_eq_true,
          Bool.not_false, if_true, beq_iff_eq, bind_assoc, pure_bind, Option.some_beq_none]
  rw [M.bind_ok (deref_some hk hq)]
  exact emplace_eval hx (constructFrom_move tr T a q s _ v hv)

theorem noexceptIf_idem {σ α : Type} (b : Bool) (m : M σ α) :
    M.noexceptIf b (M.noexceptIf b m) = M.noexceptIf b m := by
  funext s; simp only [M.noexceptIf]
  cases m s <;> cases b <;> rfl

theorem move_moveA {s : St L A R (Obj V)} {x y : L} {k : Handle A} (hk : s.hs y = some k) :
    step tr (plain T) (.move x y) s = step tr (plain T) (.moveA x k.alloc y) s := by
  simp only [step, ctorMove]
  rw [noexcept_emplace]
  have : ∀ m : M (St L A R (Obj V)) (Handle A), (do let h ← m; emplace x h; pure .unit : M _ (Out L A V)) = m >>= fun h => emplace x h >>= fun _ => pure .unit := fun _ => rfl
  simp only [M.noexceptIf, bind_assoc]
  rw [M.bind_ok (getH_some hk), ctorMoveA, noexcept_emplace]
  simp only [M.noexceptIf]
  generalize (_ >>= _ : M (St L A R (Obj V)) (Out L A V)) s = r
  cases r <;> simp
  cases tr.alwaysEqual <;> simp

theorem destroy_eval {s : St L A R (Obj V)} (I : IInv tr s) {x : L} {h : Handle A} (hx : s.hs x = some h) :
    step tr (plain T) (.destroy x) s = .ok .unit { s with
      hs := upd s.hs x none
      heap := freedHeap s.heap h
      trace := s.trace ++ freedEvents tr h } := by
  simp only [step, dtor]
  have e := reset_eval (T := T) hx (fun p hp => I.own' hx hp)
  simp only [M.bind_eq, M.noexceptIf]
  rw [e]
  simp [endLife]

theorem make_eval_args {s : St L A R (Obj V)} {x : L} {oa : Option A} {c : Ctor L X} {xs : TArgs X}
    (hx : s.hs x = none) (hc : Spec.origin c = .args xs) :
    step tr (plain T) (.make x oa c) s =
      if memOk s then madeFrom x (oa.getD tr.dflt) .unit .args (tr.res (oa.getD tr.dflt)) (s.env.pick s.ai)
        (bump s) (T.make xs (s.env.choice s.ti))
      else .threw .badAlloc { s with ai := s.ai + 1 } := by
  have H : ∀ a xs, (do
        let p ← constructFrom tr a (fun a m => (plain T).make a m xs)
        emplace x ⟨some p, a⟩; pure .unit : M _ (Out L A V)) s =
      if memOk s then madeFrom x a .unit .args (tr.res a) (s.env.pick s.ai) (bump s) (T.make xs (s.env.choice s.ti))
      else .threw .badAlloc { s with ai := s.ai + 1 } := fun a xs =>
    emplace_eval hx (constructFrom_make tr T a xs s)
  cases oa <;> rcases c with _ | (_ | _ | _) | _ | (_ | _ | _) | _ <;>
    simp only [Spec.origin, Spec.originOf, reduceCtorEq, Spec.Origin.args.injEq] at hc <;> subst hc <;>
    simp only [step, construct, ctorDefault, ctorDefaultA, ctorFrom, ctorFromA, ctorInPlace, ctorInPlaceA,
      ctorInPlaceOneA, ctorIlist, ctorIlistA, Option.getD, bind_assoc,
      pure_bind, evalSrc, TOps.makeFwd]
  all_goals exact H _ _

theorem make_eval_copy {s : St L A R (Obj V)} {x y : L} {oa : Option A} {c : Ctor L X}
    {k : Handle A} {q : Addr} {r : R} {v : V} (hx : s.hs x = none) (hc : Spec.origin c = .copyOf y)
    (hk : s.hs y = some k) (hq : k.p = some q) (hv : s.heap q = some ⟨r, some v⟩) :
    step tr (plain T) (.make x oa c) s =
      if memOk s then madeFrom x (oa.getD tr.dflt) .unit (.copyOf q) (tr.res (oa.getD tr.dflt))
        (s.env.pick s.ai) (bump s) (T.copy v (s.env.choice s.ti))
      else .threw .badAlloc { s with ai := s.ai + 1 } := by
  have H : ∀ a, (do
        let p ← constructFrom tr a (fun a m => (plain T).copyCtor a m q)
        emplace x ⟨some p, a⟩; pure .unit : M _ (Out L A V)) s =
      if memOk s then madeFrom x a .unit (.copyOf q) (tr.res a) (s.env.pick s.ai) (bump s)
        (T.copy v (s.env.choice s.ti))
      else .threw .badAlloc { s with ai := s.ai + 1 } := fun a =>
    emplace_eval hx (constructFrom_copy tr T a q s _ v hv)
  cases oa <;> rcases c with _ | (_ | _ | _) | _ | (_ | _ | _) | _ <;>
    simp only [Spec.origin, Spec.originOf, reduceCtorEq, Spec.Origin.copyOf.injEq] at hc <;> subst hc <;>
    simp only [step, construct, ctorFrom, ctorFromA, ctorInPlaceOneA, Option.getD, bind_assoc, pure_bind] <;>
    rw [M.bind_ok (evalSrc_lval hk hq)] <;> exact H _

theorem make_eval_move {s : St L A R (Obj V)} {x y : L} {oa : Option A} {c : Ctor L X}
    {k : Handle A} {q : Addr} {r : R} {v : V} (hx : s.hs x = none) (hc : Spec.origin c = .moveOf y)
    (hk : s.hs y = some k) (hq : k.p = some q) (hv : s.heap q = some ⟨r, some v⟩) :
    step tr (plain T) (.make x oa c) s =
      if memOk s then madeFrom x (oa.getD tr.dflt) .unit (.moveOf q) (tr.res (oa.getD tr.dflt))
        (s.env.pick s.ai) (leave s q r (T.move v (s.env.choice s.ti)).2) (T.move v (s.env.choice s.ti)).1
      else .threw .badAlloc { s with ai := s.ai + 1 } := by
  have H : ∀ a, (do
        let p ← constructFrom tr a (fun a m => (plain T).moveCtor a m q)
        emplace x ⟨some p, a⟩; pure .unit : M _ (Out L A V)) s =
      if memOk s then madeFrom x a .unit (.moveOf q) (tr.res a) (s.env.pick s.ai)
        (leave s q r (T.move v (s.env.choice s.ti)).2) (T.move v (s.env.choice s.ti)).1
      else .threw .badAlloc { s with ai := s.ai + 1 } := fun a =>
    emplace_eval hx (constructFrom_move tr T a q s _ v hv)
  cases oa <;> rcases c with _ | (_ | _ | _) | _ | (_ | _ | _) | _ <;>
    simp only [Spec.origin, Spec.originOf, reduceCtorEq, Spec.Origin.moveOf.injEq] at hc <;> subst hc <;>
    simp only [step, construct, ctorFrom, ctorFromA, ctorInPlaceOneA, Option.getD, bind_assoc, pure_bind] <;>
    rw [M.bind_ok (evalSrc_rval hk hq)] <;> exact H _

/-- A new object was built in `p` and replaces the one of `t`. -/
def replacedBy (tr : ATraits A R) (x : L) (t : Handle A) (a : A) (how : How) (p : Addr) (s : St L A R (Obj V)) :
    Except Exn V → Res (St L A R (Obj V)) (Out L A V)
  | .ok v => .ok (.self x) { s with
      hs := upd s.hs x (some ⟨some p, a⟩)
      heap := freedHeap (upd s.heap p (some ⟨tr.res a, some v⟩)) t
      trace := s.trace ++ [.alloc (tr.res a) p, .construct p how] ++ freedEvents tr t }
  | .error e => .threw e { s with trace := s.trace ++ [.alloc (tr.res a) p, .dealloc (tr.res a) p] }

theorem replace_eval {s s₁ : St L A R (Obj V)} {x y : L} {t o : Handle A} {how : How} {b : Bool}
    {r : Except Exn V} {m : M (St L A R (Obj V)) Addr} (I₁ : IInv tr s₁)
    (hxy : x ≠ y) (hx : s.hs x = some t) (hy : s.hs y = some o) (hs₁ : s₁.hs = s.hs)
    (hp : memOk s = true → s₁.heap (s.env.pick s.ai) = none)
    (hm : m s = if memOk s then
        placed (tr.res (if b then o.alloc else t.alloc)) (s.env.pick s.ai) how s₁ r
      else .threw .badAlloc { s with ai := s.ai + 1 }) :
    (do
        let tmp ← m
        reset tr (plain T) x
        setP x (some tmp)
        if b then
          let o ← getH y
          setAlloc x o.alloc
          pure (.self x)
        else pure (.self x) : M _ (Out L A V)) s =
      if memOk s then replacedBy tr x t (if b then o.alloc else t.alloc) how (s.env.pick s.ai) s₁ r
        else .threw .badAlloc { s with ai := s.ai + 1 } := by
  rw [M.bind_eq, hm]
  by_cases h : memOk s = true
  · simp only [h, if_true]
    cases r with
    | error e => simp only [placed, replacedBy]
    | ok v =>
      have hp := hp h
      simp only [placed, replacedBy]
      generalize ha : (if b = true then o.alloc else t.alloc) = a
      have hx₁ : s₁.hs x = some t := hs₁ ▸ hx
      have hr := reset_eval (T := T) (tr := tr) (l := x) (h := t) (s := { s₁ with
          heap := upd s₁.heap (s.env.pick s.ai) (some ⟨tr.res a, some v⟩)
          trace := s₁.trace ++ [.alloc (tr.res a) (s.env.pick s.ai), .construct (s.env.pick s.ai) how] }) hx₁
        (by
          intro q hq
          obtain ⟨w, hw⟩ := I₁.own' hx₁ hq
          have hqp : q ≠ s.env.pick s.ai := by rintro rfl; simp [hp] at hw
          exact ⟨w, by show upd _ _ _ _ = _; rw [upd_other _ _ hqp, hw]⟩)
      rw [M.bind_ok hr, M.bind_ok (setP_some (upd_same _ _ _) _)]
      rw [tail_eval (t := ⟨some (s.env.pick s.ai), t.alloc⟩) (o := o) _ (upd_same _ _ _)
        (by dsimp only
            rw [upd_other _ _ (Ne.symm hxy), upd_other _ _ (Ne.symm hxy), hs₁, hy])]
      simp only [upd_upd, ha]
  · simp [h]

theorem reset_tail_eval {b : Bool} {x y : L} {s : St L A R (Obj V)} {t o : Handle A} (I : IInv tr s)
    (hxy : x ≠ y) (hx : s.hs x = some t) (hy : s.hs y = some o) :
    (do
        reset tr (plain T) x
        if b = true then (do let o ← getH y; setAlloc x o.alloc; pure (.self x)) else pure (.self x)
        : M _ (Out L A V)) s =
      .ok (.self x) { s with
        hs := upd s.hs x (some ⟨none, if b then o.alloc else t.alloc⟩)
        heap := freedHeap s.heap t
        trace := s.trace ++ freedEvents tr t } := by
  rw [M.bind_ok (reset_eval (T := T) hx (fun p hp => I.own' hx hp))]
  rw [tail_eval (t := ⟨none, t.alloc⟩) (o := o) _ (upd_same _ _ _)
    (by show upd _ _ _ _ = _; rw [upd_other _ _ (Ne.symm hxy), hy])]
  simp only [upd_upd]

theorem assignCopy_null {s : St L A R (Obj V)} (I : IInv tr s) {x y : L} {t o : Handle A} (hxy : x ≠ y)
    (hx : s.hs x = some t) (hy : s.hs y = some o) (ho : o.p = none) :
    step tr (plain T) (.assignCopy x y) s = .ok (.self x) { s with
        hs := upd s.hs x (some ⟨none, if tr.pocca then o.alloc else t.alloc⟩)
        heap := freedHeap s.heap t
        trace := s.trace ++ freedEvents tr t } := by
  simp only [step, assignCopy, hxy, if_false, bind_assoc, ite_bind, pure_bind]
  rw [M.bind_ok (valueless_eq hy)]
  simp only [ho, beq_self_eq_true, if_true]
  exact reset_tail_eval I hxy hx hy

theorem assignCopy_replace {s : St L A R (Obj V)} (I : IInv tr s) {x y : L} {t o : Handle A} {q : Addr} {r : R}
    {v : V} (hxy : x ≠ y)
    (hx : s.hs x = some t) (hy : s.hs y = some o) (ho : o.p = some q) (hv : s.heap q = some ⟨r, some v⟩)
    (hc : (T.assignable && !(t.p == none) && tr.eq t.alloc o.alloc) = false) :
    step tr (plain T) (.assignCopy x y) s =
      if memOk s then replacedBy tr x t (if tr.pocca then o.alloc else t.alloc) (.copyOf q) (s.env.pick s.ai)
        (bump s) (T.copy v (s.env.choice s.ti))
      else .threw .badAlloc { s with ai := s.ai + 1 } := by
  have hc' : ((plain T : TOps (St L A R (Obj V)) A X).assignable && !(t.p == none) &&
            tr.eq t.alloc o.alloc) = false := hc
  simp only [step, assignCopy, hxy, if_false, bind_assoc, ite_bind, pure_bind]
  rw [M.bind_ok (valueless_eq hy)]
  simp only [ho, reduceCtorEq, beq_iff_eq, if_false]
  rw [M.bind_ok (getH_some hx), M.bind_ok (getH_some hy)]
  simp only [hc', Bool.false_eq_true, if_false]
  rw [M.bind_ok (deref_some hy ho)]
  exact replace_eval (s₁ := bump s) I hxy hx hy rfl memOk_heap (constructFrom_copy tr T _ q s _ v hv)

/-- In-place assignment of the object in `p`. -/
def assignedTo (x : L) (p : Addr) (how : How) (r : R) (d : V) (s : St L A R (Obj V)) (s' : St L A R (Obj V)) :
    Option Exn → Res (St L A R (Obj V)) (Out L A V)
  | none => .ok (.self x) { s' with
      heap := upd s'.heap p (some ⟨r, some d⟩), trace := s.trace ++ [.assign p how] }
  | some e => .threw e { s with
      heap := upd s.heap p (some ⟨r, some d⟩), trace := s.trace ++ [.assign p how], ti := s.ti + 1 }

theorem assignCopy_inPlace {s : St L A R (Obj V)} {x y : L} {t o : Handle A} {p q : Addr} {r r' : R}
    {d v : V} (hxy : x ≠ y)
    (hx : s.hs x = some t) (ht : t.p = some p) (hd : s.heap p = some ⟨r, some d⟩)
    (hy : s.hs y = some o) (ho : o.p = some q) (hv : s.heap q = some ⟨r', some v⟩)
    (ha : T.assignable = true) (he : tr.eq t.alloc o.alloc = true) :
    step tr (plain T) (.assignCopy x y) s =
      assignedTo x p (.copyOf q) r (T.copyAssign d v (s.env.choice s.ti)).2 s
        { s with hs := upd s.hs x (some ⟨some p, if tr.pocca then o.alloc else t.alloc⟩), ti := s.ti + 1 }
        (T.copyAssign d v (s.env.choice s.ti)).1 := by
  have hc' : ((plain T : TOps (St L A R (Obj V)) A X).assignable && !(some p == none) &&
            tr.eq t.alloc o.alloc) = true := by
    simpa [plain, he] using ha
  simp only [step, assignCopy, hxy, if_false, bind_assoc, ite_bind, pure_bind]
  rw [M.bind_ok (valueless_eq hy)]
  simp only [ho, reduceCtorEq, beq_iff_eq, if_false]
  rw [M.bind_ok (getH_some hx), M.bind_ok (getH_some hy)]
  simp only [ht, hc', if_true]
  rw [M.bind_ok (deref_some hx ht), M.bind_ok (deref_some hy ho), M.bind_eq, plain_copyAssign hd hv]
  rcases hca : T.copyAssign d v (s.env.choice s.ti) with ⟨_ | e, d'⟩
  · simp only [rethrow, M.pure_eq, assignedTo]
    rw [tail_eval (s := { s with
              heap := upd s.heap p (some ⟨r, some d'⟩)
              trace := s.trace ++ [.assign p (.copyOf q)]
              ti := s.ti + 1 }) (t := t) (o := o) _ hx hy]
    simp only [ht]
  · simp only [rethrow, M.throwE_eq, assignedTo]

theorem assignMove_null {s : St L A R (Obj V)} (I : IInv tr s) {x y : L} {t o : Handle A} (hxy : x ≠ y)
    (hx : s.hs x = some t) (hy : s.hs y = some o) (ho : o.p = none) :
    step tr (plain T) (.assignMove x y) s = .ok (.self x) { s with
        hs := upd s.hs x (some ⟨none, if tr.pocma then o.alloc else t.alloc⟩)
        heap := freedHeap s.heap t
        trace := s.trace ++ freedEvents tr t } := by
  simp only [step, assignMove, noexceptIf_bind_pure]
  apply noexceptIf_ok
  simp only [hxy, if_false, bind_assoc, ite_bind, pure_bind]
  rw [M.bind_ok (valueless_eq hy)]
  simp only [ho, beq_self_eq_true, if_true]
  exact reset_tail_eval I hxy hx hy

theorem assignMove_steal {s : St L A R (Obj V)} (S : tr.Sound) (I : IInv tr s) {x y : L} {t o : Handle A} {q : Addr}
    (hxy : x ≠ y)
    (hx : s.hs x = some t) (hy : s.hs y = some o) (ho : o.p = some q) (he : tr.eq t.alloc o.alloc = true) :
    step tr (plain T) (.assignMove x y) s = .ok (.self x) { s with
        hs := upd (upd s.hs y (some ⟨none, o.alloc⟩)) x (some ⟨some q, if tr.pocma then o.alloc else t.alloc⟩)
        heap := freedHeap s.heap t
        trace := s.trace ++ freedEvents tr t } := by
  have hr := S.eq_res _ _ he
  simp only [step, assignMove, noexceptIf_bind_pure]
  apply noexceptIf_ok
  simp only [hxy, if_false, bind_assoc, ite_bind, pure_bind]
  rw [M.bind_ok (valueless_eq hy)]
  simp only [ho, Option.some_beq_none, Bool.false_eq_true, if_false]
  rw [M.bind_ok (getH_some hx), M.bind_ok (getH_some hy)]
  simp only [he, if_true]
  rw [M.bind_ok (setP_some hx _),
    M.bind_ok (setP_some (h := o) (by simp [upd_other _ _ (Ne.symm hxy), hy]) _)]
  have hre := reset_eval (T := T) (tr := tr) (l := y) (h := ⟨t.p, o.alloc⟩) (s := { s with
    hs := upd (upd s.hs x (some ⟨o.p, t.alloc⟩)) y (some ⟨t.p, o.alloc⟩) }) (upd_same _ _ _)
    (fun p hp => by
      obtain ⟨v, hv⟩ := I.own' hx hp
      exact ⟨v, by show s.heap p = _; rw [hv, hr]⟩)
  dsimp only at hre ⊢
  rw [M.bind_ok hre]
  rw [tail_eval (t := ⟨some q, t.alloc⟩) (o := ⟨none, o.alloc⟩) _
    (by show upd _ _ _ _ = _; rw [upd_other _ _ hxy, upd_other _ _ hxy, upd_same, ho]) (upd_same _ _ _)]
  have e1 : freedEvents tr (⟨t.p, o.alloc⟩ : Handle A) = freedEvents tr t := by
    simp only [freedEvents, hr]
  have e2 : freedHeap s.heap (⟨t.p, o.alloc⟩ : Handle A) = freedHeap s.heap t := rfl
  rw [e1, e2]
  congr 2
  funext z; simp only [upd]; grind

theorem assignMove_replace {s : St L A R (Obj V)} (I : IInv tr s) {x y : L} {t o : Handle A} {q : Addr} {r : R}
    {v : V} (hxy : x ≠ y)
    (hx : s.hs x = some t) (hy : s.hs y = some o) (ho : o.p = some q) (hv : s.heap q = some ⟨r, some v⟩)
    (he : tr.eq t.alloc o.alloc = false) :
    step tr (plain T) (.assignMove x y) s = M.noexceptIf (tr.pocma || tr.alwaysEqual) (fun s =>
      if memOk s then replacedBy tr x t (if tr.pocma then o.alloc else t.alloc) (.moveOf q) (s.env.pick s.ai)
        (leave s q r (T.move v (s.env.choice s.ti)).2) (T.move v (s.env.choice s.ti)).1
      else .threw .badAlloc { s with ai := s.ai + 1 }) s := by
  simp only [step, assignMove, noexceptIf_bind_pure]
  have I₁ := Inv.write I (b' := some (T.move v (s.env.choice s.ti)).2) hv rfl
  have := replace_eval (T := T) (b := tr.pocma) (s₁ := leave s q r (T.move v (s.env.choice s.ti)).2) I₁ hxy hx hy rfl
    (moved_fresh hv) (constructFrom_move tr T (if tr.pocma then o.alloc else t.alloc) q s _ v hv)
  simp only [M.noexceptIf]
  rw [← this]
  simp only [hxy, if_false, bind_assoc, ite_bind, pure_bind]
  rw [M.bind_ok (valueless_eq hy)]
  simp only [ho, Option.some_beq_none, Bool.false_eq_true, if_false]
  rw [M.bind_ok (getH_some hx), M.bind_ok (getH_some hy)]
  simp only [he, Bool.false_eq_true, if_false]
  rw [M.bind_ok (deref_some hy ho)]

theorem fill_eval {s s₁ : St L A R (Obj V)} {x : L} {t : Handle A} {how : How} {r : Except Exn V}
    {m : M (St L A R (Obj V)) Addr} (hx₁ : s₁.hs x = some t)
    (hm : m s = if memOk s then placed (tr.res t.alloc) (s.env.pick s.ai) how s₁ r
      else .threw .badAlloc { s with ai := s.ai + 1 }) :
    (do let p ← m; setP x (some p); pure (.self x) : M _ (Out L A V)) s =
      if memOk s then madeFrom x t.alloc (.self x) how (tr.res t.alloc) (s.env.pick s.ai) s₁ r
      else .threw .badAlloc { s with ai := s.ai + 1 } := by
  rw [M.bind_eq, hm]
  by_cases h : memOk s = true
  · simp only [h, if_true]
    cases r with
    | ok v => simp only [placed, M.bind_eq, setP, hx₁, M.pure_eq, madeFrom]
    | error e => simp only [placed, madeFrom]
  · simp [h]

theorem assignFrom_pre_null {s : St L A R (Obj V)} {x : L} {t : Handle A} {u : Src L X} {f : Fwd X}
    (hx : s.hs x = some t) (ht : t.p = none) (hf : evalSrc u s = .ok f s) :
    step tr (plain T) (.assignFrom x u) s = (do
          let p ← constructFrom tr t.alloc (fun a m => (plain T).makeFwd a m f)
          setP x (some p); pure (.self x) : M _ (Out L A V)) s := by
  simp only [step, assignFrom, bind_assoc, ite_bind, pure_bind]
  rw [M.bind_ok hf, M.bind_ok (valueless_eq hx)]
  simp only [ht, beq_self_eq_true, if_true]
  rw [M.bind_ok (getH_some hx)]

theorem assignFrom_pre_some {s : St L A R (Obj V)} {x : L} {t : Handle A} {p : Addr} {u : Src L X} {f : Fwd X}
    (hx : s.hs x = some t) (ht : t.p = some p) (hf : evalSrc u s = .ok f s) :
    step tr (plain T) (.assignFrom x u) s = (do
          (plain T).assignFwd p f; pure (.self x) : M _ (Out L A V)) s := by
  simp only [step, assignFrom, bind_assoc, ite_bind, pure_bind]
  rw [M.bind_ok hf, M.bind_ok (valueless_eq hx)]
  simp only [ht, Option.some_beq_none, Bool.false_eq_true, if_false]
  rw [M.bind_ok (deref_some hx ht)]

theorem assignFrom_null_arg {s : St L A R (Obj V)} {x : L} {t : Handle A} {u : X}
    (hx : s.hs x = some t) (ht : t.p = none) :
    step tr (plain T) (.assignFrom x (.arg u)) s =
      if memOk s then madeFrom x t.alloc (.self x) .args (tr.res t.alloc) (s.env.pick s.ai) (bump s)
        (T.make (.pack [u]) (s.env.choice s.ti))
      else .threw .badAlloc { s with ai := s.ai + 1 } := by
  rw [assignFrom_pre_null (f := .arg u) hx ht rfl]
  exact fill_eval (s₁ := bump s) hx (constructFrom_make tr T t.alloc (.pack [u]) s)

theorem assignFrom_null_copy {s : St L A R (Obj V)} {x y : L} {t k : Handle A} {q : Addr} {r : R} {v : V}
    (hx : s.hs x = some t) (ht : t.p = none)
    (hk : s.hs y = some k) (hq : k.p = some q) (hv : s.heap q = some ⟨r, some v⟩) :
    step tr (plain T) (.assignFrom x (.lval y)) s =
      if memOk s then madeFrom x t.alloc (.self x) (.copyOf q) (tr.res t.alloc) (s.env.pick s.ai) (bump s)
        (T.copy v (s.env.choice s.ti))
      else .threw .badAlloc { s with ai := s.ai + 1 } := by
  rw [assignFrom_pre_null hx ht (evalSrc_lval hk hq)]
  exact fill_eval (s₁ := bump s) hx (constructFrom_copy tr T t.alloc q s _ v hv)

theorem assignFrom_null_move {s : St L A R (Obj V)} {x y : L} {t k : Handle A} {q : Addr} {r : R} {v : V}
    (hx : s.hs x = some t) (ht : t.p = none)
    (hk : s.hs y = some k) (hq : k.p = some q) (hv : s.heap q = some ⟨r, some v⟩) :
    step tr (plain T) (.assignFrom x (.rval y)) s =
      if memOk s then madeFrom x t.alloc (.self x) (.moveOf q) (tr.res t.alloc) (s.env.pick s.ai)
        (leave s q r (T.move v (s.env.choice s.ti)).2) (T.move v (s.env.choice s.ti)).1
      else .threw .badAlloc { s with ai := s.ai + 1 } := by
  rw [assignFrom_pre_null hx ht (evalSrc_rval hk hq)]
  exact fill_eval (s₁ := leave s q r (T.move v (s.env.choice s.ti)).2) hx (constructFrom_move tr T t.alloc q s _ v hv)

theorem assignFrom_some_arg {s : St L A R (Obj V)} {x : L} {t : Handle A} {p : Addr} {r : R} {d : V} {u : X}
    (hx : s.hs x = some t) (ht : t.p = some p) (hd : s.heap p = some ⟨r, some d⟩) :
    step tr (plain T) (.assignFrom x (.arg u)) s =
      assignedTo x p .args r (T.assignArg d u (s.env.choice s.ti)).2 s { s with ti := s.ti + 1 }
        (T.assignArg d u (s.env.choice s.ti)).1 := by
  rw [assignFrom_pre_some (f := .arg u) hx ht rfl]
  simp only [TOps.assignFwd, plain, M.bind_eq, readObj, readBody, hd, choose, emit, writeObj, writeBody, M.pure_eq]
  rcases T.assignArg d u (s.env.choice s.ti) with ⟨_ | e, d'⟩ <;> simp [rethrow, assignedTo]

theorem assignFrom_some_copy {s : St L A R (Obj V)} {x y : L} {t k : Handle A} {p q : Addr} {r r' : R} {d v : V}
    (hx : s.hs x = some t) (ht : t.p = some p) (hd : s.heap p = some ⟨r, some d⟩)
    (hk : s.hs y = some k) (hq : k.p = some q) (hv : s.heap q = some ⟨r', some v⟩) :
    step tr (plain T) (.assignFrom x (.lval y)) s =
      assignedTo x p (.copyOf q) r (T.copyAssign d v (s.env.choice s.ti)).2 s { s with ti := s.ti + 1 }
        (T.copyAssign d v (s.env.choice s.ti)).1 := by
  rw [assignFrom_pre_some hx ht (evalSrc_lval hk hq)]
  rw [M.bind_eq, TOps.assignFwd, plain_copyAssign hd hv]
  rcases T.copyAssign d v (s.env.choice s.ti) with ⟨_ | e, d'⟩ <;> simp [rethrow, assignedTo]

theorem assignFrom_some_move {s : St L A R (Obj V)} {x y : L} {t k : Handle A} {p q : Addr} {r r' : R} {d v : V}
    (hx : s.hs x = some t) (ht : t.p = some p) (hd : s.heap p = some ⟨r, some d⟩)
    (hk : s.hs y = some k) (hq : k.p = some q) (hv : s.heap q = some ⟨r', some v⟩) :
    step tr (plain T) (.assignFrom x (.rval y)) s =
      assignedTo x p (.moveOf q) r (T.moveAssign d v (s.env.choice s.ti)).2.1
        { s with heap := upd s.heap q (some ⟨r', some (T.moveAssign d v (s.env.choice s.ti)).2.2⟩) }
        { s with heap := upd s.heap q (some ⟨r', some (T.moveAssign d v (s.env.choice s.ti)).2.2⟩), ti := s.ti + 1 }
        (T.moveAssign d v (s.env.choice s.ti)).1 := by
  rw [assignFrom_pre_some hx ht (evalSrc_rval hk hq)]
  rw [M.bind_eq, TOps.assignFwd, plain_moveAssign hd hv]
  rcases T.moveAssign d v (s.env.choice s.ti) with ⟨_ | e, d', v'⟩ <;> simp [rethrow, assignedTo]

theorem swap_eval {s : St L A R (Obj V)} {x y : L} {t o : Handle A} (hx : s.hs x = some t) (hy : s.hs y = some o)
    (h : tr.pocs = true ∨ tr.eq t.alloc o.alloc = true) :
    step tr (plain T) (.swap x y) s = .ok .unit { s with
      hs := upd (upd s.hs x (some ⟨o.p, if tr.pocs then o.alloc else t.alloc⟩)) y
        (some ⟨t.p, if tr.pocs then t.alloc else o.alloc⟩) } := by
  simp only [step, swap]
  rw [noexceptIf_bind_pure _ (fun _ => Out.unit)]
  apply noexceptIf_ok
  simp only [bind_assoc]
  rw [M.bind_ok (getH_some hx), M.bind_ok (getH_some hy)]
  by_cases hxy : x = y
  · subst hxy
    have : t = o := by rw [hx] at hy; simpa using hy
    subst this
    cases hps : tr.pocs
    · have heq : tr.eq t.alloc t.alloc = true := by simpa [hps] using h
      simp only [heq, if_true, bind_assoc, Bool.false_eq_true, if_false]
      rw [M.bind_ok (setP_some hx _), M.bind_ok (setP_some (upd_same _ _ _) _)]
      simp
    · simp only [if_true, bind_assoc]
      rw [M.bind_ok (setAlloc_some hx _), M.bind_ok (setAlloc_some (upd_same _ _ _) _),
        M.bind_ok (setP_some (upd_same _ _ _) _), M.bind_ok (setP_some (upd_same _ _ _) _)]
      simp
  · cases hps : tr.pocs
    · have heq : tr.eq t.alloc o.alloc = true := by simpa [hps] using h
      simp only [heq, if_true, bind_assoc, Bool.false_eq_true, if_false]
      rw [M.bind_ok (setP_some hx _),
        M.bind_ok (setP_some (h := o) (by simp [upd_other _ _ (Ne.symm hxy), hy]) _)]
      rfl
    · simp only [if_true, bind_assoc]
      rw [M.bind_ok (setAlloc_some hx _),
        M.bind_ok (setAlloc_some (h := o) (by simp [upd_other _ _ (Ne.symm hxy), hy]) _),
        M.bind_ok (setP_some (h := ⟨t.p, o.alloc⟩) (by simp [upd_other _ _ hxy]) _),
        M.bind_ok (setP_some (h := ⟨o.p, t.alloc⟩) (by simp [upd_other _ _ (Ne.symm hxy)]) _)]
      simp only [M.pure_eq]
      congr 2
      funext z; simp only [upd]; grind

theorem friendSwap_swap (x y : L) :
    step tr (plain T) (.friendSwap x y) = (step tr (plain T) (.swap x y) : M (St L A R (Obj V)) (Out L A V)) := by
  simp only [step, friendSwap, swap]
  rw [noexceptIf_idem]

theorem swap_undefined {s : St L A R (Obj V)} {x y : L} {t o : Handle A} (hx : s.hs x = some t) (hy : s.hs y = some o)
    (h : tr.pocs = false) (h' : tr.eq t.alloc o.alloc = false) :
    step tr (plain T) (.swap x y) s = .ub .unreachable := by
  simp only [step, swap]
  rw [noexceptIf_bind_pure _ (fun _ => Out.unit)]
  simp only [M.noexceptIf]
  have : (do
      let t ← getH x
      let o ← getH y
      if tr.pocs then
        setAlloc x o.alloc
        setAlloc y t.alloc
        setP x o.p
        setP y t.p
      else if tr.eq t.alloc o.alloc then
        setP x o.p
        setP y t.p
      else M.undef .unreachable
      pure (.unit : Out L A V) : M (St L A R (Obj V)) (Out L A V)) s = .ub .unreachable := by
    rw [M.bind_ok (getH_some hx), M.bind_ok (getH_some hy)]
    simp [h, h', M.bind_eq]
  simp only [bind_assoc, ite_bind] at this ⊢
  rw [this]

theorem deref_eval {s : St L A R (Obj V)} {x : L} {t : Handle A} {p : Addr} {r : R} {d : V}
    (hx : s.hs x = some t) (ht : t.p = some p) (hd : s.heap p = some ⟨r, some d⟩) :
    step tr (plain T) (.deref x) s = .ok (.value d) s := by
  simp only [step]
  rw [M.bind_ok (deref_some hx ht)]
  simp [M.bind_eq, readObj, readBody, hd]

theorem arrow_eval {s : St L A R (Obj V)} {x : L} {t : Handle A} {p : Addr} {r : R} {d : V}
    (hx : s.hs x = some t) (ht : t.p = some p) (hd : s.heap p = some ⟨r, some d⟩) :
    step tr (plain T) (.arrow x) s = .ok (.value d) s := by
  simp [step, arrow, M.bind_eq, readObj, readBody, getH, hx, ht, hd]

theorem modify_eval {s : St L A R (Obj V)} {x : L} {t : Handle A} {p : Addr} {r : R} {d : V} {f : V → V}
    (hx : s.hs x = some t) (ht : t.p = some p) (hd : s.heap p = some ⟨r, some d⟩) :
    step tr (plain T) (.modify x f) s = .ok .unit { s with heap := upd s.heap p (some ⟨r, some (f d)⟩) } := by
  simp only [step]
  rw [M.bind_ok (deref_some hx ht)]
  simp [M.bind_eq, readObj, readBody, hd, writeObj, writeBody]

theorem valueless_step {s : St L A R (Obj V)} {x : L} {t : Handle A} (hx : s.hs x = some t) :
    step tr (plain T) (.valueless x) s = .ok (.bool (t.p == none)) s := by
  simp only [step]
  rw [M.bind_ok (valueless_eq hx)]; rfl

theorem getAllocator_step {s : St L A R (Obj V)} {x : L} {t : Handle A} (hx : s.hs x = some t) :
    step tr (plain T) (.getAllocator x) s = .ok (.alloc t.alloc) s := by
  simp [step, getAllocator, M.bind_eq, getH, hx]

end
end Verif.Indirect
