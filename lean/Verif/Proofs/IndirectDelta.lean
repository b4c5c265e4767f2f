import Verif.Proofs.IndirectEffects
import Verif.Spec.Table

/-! What every call adds to the trace. -/

set_option autoImplicit false
set_option linter.unusedSectionVars false
set_option linter.unusedSimpArgs false

namespace Verif.Indirect
open Verif

section
variable {L A R V X : Type} [DecidableEq L] [DecidableEq R]
variable {tr : ATraits A R} {T : TSpec V X} {s s' : St L A R (Obj V)} {e : Env}

/-- Events with these numbers of allocations, deallocations and operations of `T` were added; the new `T` was built
before the old one was destroyed. -/
def Adds (s s' : St L A R (Obj V)) (na nd nt : Nat) : Prop :=
  ∃ evs, s'.trace = s.trace ++ evs ∧ Spec.allocs evs = na ∧ Spec.deallocs evs = nd ∧ Spec.tops evs = nt ∧
    Spec.destroys evs = nd ∧
    (na = 1 → nd = 1 → ∃ r p how q r', evs = [.alloc r p, .construct p how, .destroy q, .dealloc r' q])

/-- What a call that throws can have added. -/
def AddsThrew (s s' : St L A R (Obj V)) : Prop :=
  s'.hs = s.hs ∧ (s'.trace = s.trace ∨ (∃ r p, s'.trace = s.trace ++ [.alloc r p, .dealloc r p]) ∨
    ∃ p how, s'.trace = s.trace ++ [.assign p how])

/-- Both. -/
def Costs (s : St L A R (Obj V)) (m : Res (St L A R (Obj V)) (Out L A V)) (na nd nt : Nat) : Prop :=
  (∀ out s', m = .ok out s' → Adds s s' na nd nt) ∧ (∀ ex s', m = .threw ex s' → AddsThrew s s')

theorem costs_created {m : Res (St L A R (Obj V)) (Out L A V)} {x : L} {a : A} {o : Out L A V} {how : How}
    {s₁ : St L A R (Obj V)} {r : Except Exn V}
    (hm : m = if available s e then madeFrom x a o how (tr.res a) (e.pick 0) s₁ r
      else .threw .badAlloc { s.enter e with ai := 1 })
    (h1 : s₁.hs = s.hs) (h3 : s₁.trace = s.trace) : Costs s m 1 0 1 := by
  have E := made_effect hm h1 h3
  refine ⟨fun out s' h => ?_, fun ex s' h => ?_⟩
  · obtain ⟨_, v, p, _, _, C⟩ := E.1 _ _ h
    exact ⟨_, C.events, rfl, rfl, rfl, rfl, by simp⟩
  · cases E.2.1 _ _ h with
    | noStorage _ _ h1 _ h2 => exact ⟨h1, .inl h2⟩
    | ctorThrew p _ _ _ h1 _ h2 => exact ⟨h1, .inr (.inl ⟨_, _, h2⟩)⟩

theorem costs_replaced {m : Res (St L A R (Obj V)) (Out L A V)} {x : L} {a : A} {t : Handle A} {how : How}
    {s₁ : St L A R (Obj V)} {r : Except Exn V}
    (hm : m = if available s e then replacedBy tr x t a how (e.pick 0) s₁ r
      else .threw .badAlloc { s.enter e with ai := 1 })
    (h1 : s₁.hs = s.hs) (h3 : s₁.trace = s.trace) (ht : t.p ≠ some (e.pick 0) ∨ available s e = false) :
    Costs s m 1 (if t.p.isSome then 1 else 0) 1 := by
  have E := replaced_effect hm h1 h3 ht
  refine ⟨fun out s' h => ?_, fun ex s' h => ?_⟩
  · obtain ⟨_, v, p, _, _, C⟩ := E.1 _ _ h
    refine ⟨_, C.events.trans (by simp only [List.append_assoc]; rfl), ?_⟩
    cases t.p with
    | none => simp [Spec.released, Spec.allocs, Spec.deallocs, Spec.tops, Spec.destroys]
    | some q => exact ⟨rfl, rfl, rfl, rfl, fun _ _ => ⟨_, _, _, _, _, rfl⟩⟩
  · cases E.2.1 _ _ h with
    | noStorage _ _ h1 _ h2 => exact ⟨h1, .inl h2⟩
    | ctorThrew p _ _ _ h1 _ h2 => exact ⟨h1, .inr (.inl ⟨_, _, h2⟩)⟩

theorem costs_assigned {m : Res (St L A R (Obj V)) (Out L A V)} {x : L} {p : Addr} {how : How} {r : R} {d : V}
    {s₁ s₂ : St L A R (Obj V)} {ro : Option Exn} (hm : m = assignedTo x p how r d s₁ s₂ ro)
    (h1 : s₁.hs = s.hs) (h1t : s₁.trace = s.trace) : Costs s m 0 0 1 := by
  subst hm
  cases ro with
  | none =>
    refine ⟨?_, by simp [assignedTo]⟩
    simp only [assignedTo, Res.ok.injEq]
    rintro out s' ⟨rfl, rfl⟩
    exact ⟨_, by rw [h1t], rfl, rfl, rfl, rfl, by simp⟩
  | some ex =>
    refine ⟨by simp [assignedTo], ?_⟩
    simp only [assignedTo, Res.threw.injEq]
    rintro out s' ⟨rfl, rfl⟩
    exact ⟨h1, .inr (.inr ⟨_, _, by rw [h1t]⟩)⟩

theorem costs_ok {m : Res (St L A R (Obj V)) (Out L A V)} {o : Out L A V} {s₁ : St L A R (Obj V)}
    {evs : List (Ev R)} (hm : m = .ok o s₁) (h : s₁.trace = s.trace ++ evs) (h0 : Spec.allocs evs = 0) :
    Costs s m (Spec.allocs evs) (Spec.deallocs evs) (Spec.tops evs) ∨
      Spec.destroys evs ≠ Spec.deallocs evs := by
  by_cases hd : Spec.destroys evs = Spec.deallocs evs
  · left
    subst hm
    refine ⟨?_, by simp⟩
    simp only [Res.ok.injEq]
    rintro out s' ⟨rfl, rfl⟩
    exact ⟨_, h, rfl, rfl, rfl, hd, by simp [h0]⟩
  · exact .inr hd

theorem costs_silent {m : Res (St L A R (Obj V)) (Out L A V)} {o : Out L A V} {s₁ : St L A R (Obj V)}
    (hm : m = .ok o s₁) (h : s₁.trace = s.trace) : Costs s m 0 0 0 := by
  have := costs_ok (s := s) (evs := []) hm (by simp [h]) rfl
  simpa [Spec.allocs, Spec.deallocs, Spec.tops, Spec.destroys] using this

theorem costs_freed {m : Res (St L A R (Obj V)) (Out L A V)} {o : Out L A V} {s₁ : St L A R (Obj V)} {t : Handle A}
    (hm : m = .ok o s₁) (h : s₁.trace = s.trace ++ freedEvents tr t) :
    Costs s m 0 (if t.p.isSome then 1 else 0) 0 := by
  have := costs_ok (s := s) hm h (by cases hp : t.p <;> simp [freedEvents, hp, Spec.allocs])
  revert this
  cases hp : t.p <;>
    simp [freedEvents, hp, Spec.allocs, Spec.deallocs, Spec.tops, Spec.destroys]

theorem costs_noexcept {m : M (St L A R (Obj V)) (Out L A V)} {b : Bool} {na nd nt : Nat} {s₀ : St L A R (Obj V)}
    (h : Costs s (m s₀) na nd nt) : Costs s (M.noexceptIf b m s₀) na nd nt :=
  ⟨fun _ _ h' => h.1 _ _ (noexceptIf_ok_inv h'), fun _ _ h' => h.2 _ _ (noexceptIf_threw_inv h')⟩

theorem has_eq (I : IInv tr s) {y : L} {k : Handle A} (hk : s.hs y = some k) :
    Spec.has (abs s) y = k.p.isSome := by
  cases hp : k.p with
  | none => simp [Spec.has, Spec.valueOf, abs, absWith, hk, hp]
  | some p =>
    obtain ⟨w, hw⟩ := I.own' hk hp
    simp [Spec.has, Spec.valueOf, abs, absWith, hk, hp, hw]

theorem sameAlloc_eq {x y : L} {t k : Handle A} (hx : s.hs x = some t) (hk : s.hs y = some k) :
    Spec.sameAlloc tr (abs s) x y = tr.eq t.alloc k.alloc := by
  simp [Spec.sameAlloc, abs, absWith, hx, hk]

theorem takesOver_eq {y : L} {a : A} {k : Handle A} (hk : s.hs y = some k) :
    Spec.takesOver tr (abs s) a y = (tr.alwaysEqual || tr.eq a k.alloc) := by
  simp [Spec.takesOver, abs, absWith, hk]

theorem live_hs {y : L} (h : Spec.Live (abs s) y) : ∃ k, s.hs y = some k := by
  obtain ⟨b, hb⟩ := h
  obtain ⟨k, hk, _⟩ := abs_some hb
  exact ⟨k, hk⟩

theorem dead_hs {y : L} (h : Spec.Dead (abs s) y) : s.hs y = none := by
  simpa [Spec.Dead, abs, absWith] using h

theorem engaged_hs {y : L} (h : Spec.Engaged (abs s) y) :
    ∃ k q r v, s.hs y = some k ∧ k.p = some q ∧ s.heap q = some ⟨r, some v⟩ := by
  obtain ⟨v, hv⟩ := h
  obtain ⟨k, q, r, hk, hq, hh⟩ := abs_valueOf hv
  exact ⟨k, q, r, v, hk, hq, hh⟩

theorem costs_moveA (I : IInv tr s) {x y : L} {a : A} {k : Handle A} (hx : s.hs x = none) (hk : s.hs y = some k) :
    Costs s (call tr (plain T) (.moveA x a y) e s)
      (if k.p.isSome && !(tr.alwaysEqual || tr.eq a k.alloc) then 1 else 0) 0
      (if k.p.isSome && !(tr.alwaysEqual || tr.eq a k.alloc) then 1 else 0) := by
  by_cases h : tr.alwaysEqual = true ∨ tr.eq a k.alloc = true
  · have h' : (tr.alwaysEqual || tr.eq a k.alloc) = true := by simpa using h
    simp only [h', Bool.not_true, Bool.and_false, Bool.false_eq_true, if_false]
    exact costs_silent (moveA_steal (s := s.enter e) hx hk h) rfl
  · simp only [not_or, Bool.not_eq_true] at h
    cases hp : k.p with
    | none =>
      simp only [Option.isSome_none, Bool.false_and, Bool.false_eq_true, if_false]
      exact costs_silent (moveA_null (s := s.enter e) hx hk hp h.1 h.2) rfl
    | some q =>
      obtain ⟨w, hw⟩ := I.own' hk hp
      simp only [h.1, h.2, Option.isSome_some, Bool.or_self, Bool.not_false, Bool.and_self, if_true]
      exact costs_created (moveA_eval (s := s.enter e) hx hk hp hw h.1 h.2) rfl rfl

theorem costs_copyA (I : IInv tr s) {x y : L} {a : A} {k : Handle A} (hx : s.hs x = none) (hk : s.hs y = some k) :
    Costs s (call tr (plain T) (.copyA x a y) e s) (if k.p.isSome then 1 else 0) 0 (if k.p.isSome then 1 else 0) := by
  cases hp : k.p with
  | none => exact costs_silent (copyA_null (s := s.enter e) hx hk hp) rfl
  | some q =>
    obtain ⟨w, hw⟩ := I.own' hk hp
    exact costs_created (copyA_eval (s := s.enter e) hx hk hp hw) rfl rfl

theorem fresh_ne (I : IInv tr s) {x : L} {t : Handle A} (hx : s.hs x = some t) :
    t.p ≠ some (e.pick 0) ∨ available s e = false := by
  by_cases ha : available s e = true
  · left; intro hp
    obtain ⟨w, hw⟩ := I.own' hx hp
    simp [available, hw] at ha
  · right; simpa using ha

theorem call_costs (S : tr.Sound) (I : IInv tr s) {o : Op L A V X} (hl : Spec.Legal tr (abs s) o) :
    Costs s (call tr (plain T) o e s) (Spec.allocCost tr T (abs s) o) (Spec.deallocCost tr T (abs s) o)
      (Spec.opCost tr T (abs s) o) := by
  have I' : IInv tr (s.enter e) := I
  cases o with
  | make x a c =>
    have hx := dead_hs hl.1
    have hc : ∀ u : Src L X, Spec.LegalSrc (abs s) u → Spec.origin c = Spec.originOf u →
        Costs s (call tr (plain T) (.make x a c) e s) 1 0 1 := by
      intro u hu hc
      cases u with
      | arg u => exact costs_created (make_eval_args (s := s.enter e) hx hc) rfl rfl
      | lval y =>
        obtain ⟨k, q, r, v, hk, hq, hv⟩ := engaged_hs hu
        exact costs_created (make_eval_copy (s := s.enter e) hx hc hk hq hv) rfl rfl
      | rval y =>
        obtain ⟨k, q, r, v, hk, hq, hv⟩ := engaged_hs hu
        exact costs_created (make_eval_move (s := s.enter e) hx hc hk hq hv) rfl rfl
    cases c with
    | «from» u => exact hc u hl.2 rfl
    | inPlaceOne u => exact hc u hl.2 rfl
    | default => exact costs_created (make_eval_args (s := s.enter e) hx rfl) rfl rfl
    | inPlace us => exact costs_created (make_eval_args (s := s.enter e) hx rfl) rfl rfl
    | ilist l us => exact costs_created (make_eval_args (s := s.enter e) hx rfl) rfl rfl
  | copy x y =>
    obtain ⟨k, hk⟩ := live_hs hl.2
    have := costs_copyA (T := T) (e := e) I (a := tr.socc k.alloc) (dead_hs hl.1) hk
    simp only [Spec.allocCost, Spec.deallocCost, Spec.opCost, has_eq I hk]
    simp only [call] at this ⊢
    rwa [copy_copyA (s := s.enter e) hk]
  | copyA x a y =>
    obtain ⟨k, hk⟩ := live_hs hl.2
    simp only [Spec.allocCost, Spec.deallocCost, Spec.opCost, has_eq I hk]
    exact costs_copyA I (dead_hs hl.1) hk
  | move x y =>
    obtain ⟨k, hk⟩ := live_hs hl.2
    have := costs_moveA (T := T) (e := e) I (a := k.alloc) (dead_hs hl.1) hk
    have hb : abs s y = some ⟨k.alloc, k.p.bind fun p => (s.heap p).bind fun c => c.body⟩ := by
      simp [abs, absWith, hk]
    simp only [Spec.allocCost, Spec.deallocCost, Spec.opCost, has_eq I hk, hb, takesOver_eq hk]
    simp only [call] at this ⊢
    rwa [move_moveA (s := s.enter e) hk]
  | moveA x a y =>
    obtain ⟨k, hk⟩ := live_hs hl.2
    simp only [Spec.allocCost, Spec.deallocCost, Spec.opCost, has_eq I hk, takesOver_eq hk]
    exact costs_moveA I (dead_hs hl.1) hk
  | destroy x =>
    obtain ⟨k, hk⟩ := live_hs hl
    simp only [Spec.allocCost, Spec.deallocCost, Spec.opCost, has_eq I hk]
    exact costs_freed (destroy_eval (s := s.enter e) I' hk) rfl
  | assignCopy x y =>
    obtain ⟨t, ht⟩ := live_hs hl.1
    obtain ⟨k, hk⟩ := live_hs hl.2
    simp only [Spec.allocCost, Spec.deallocCost, Spec.opCost, has_eq I hk, has_eq I ht, sameAlloc_eq ht hk]
    by_cases hxy : x = y
    · simp only [hxy, ne_eq, not_true_eq_false, false_and, if_false]
      exact costs_silent (s₁ := s.enter e) (by simp [call, step, assignCopy, M.bind_eq]; rfl) rfl
    cases hq : k.p with
    | none =>
      have := costs_freed (assignCopy_null (T := T) (s := s.enter e) I' hxy ht hk hq) (s := s) rfl
      simpa [call, hxy] using this
    | some q =>
      obtain ⟨w, hw⟩ := I.own' hk hq
      by_cases hc : (T.assignable && !(t.p == none) && tr.eq t.alloc k.alloc) = true
      · simp only [Bool.and_eq_true, Bool.not_eq_true', beq_eq_false_iff_ne, ne_eq] at hc
        obtain ⟨p, hp⟩ := Option.ne_none_iff_exists'.1 hc.1.2
        obtain ⟨d, hd⟩ := I.own' ht hp
        have := costs_assigned (s := s)
          (assignCopy_inPlace (T := T) (s := s.enter e) hxy ht hp hd hk hq hw hc.1.1 hc.2) rfl rfl
        simpa [call, hxy, hp, hc.1.1, hc.2] using this
      · have hc : (T.assignable && !(t.p == none) && tr.eq t.alloc k.alloc) = false := by simpa using hc
        have := costs_replaced (s := s) (e := e)
          (assignCopy_replace (T := T) (s := s.enter e) I' hxy ht hk hq hw hc) rfl rfl (fresh_ne I ht)
        simp only [hxy, Option.isSome_some, ne_eq, not_false_eq_true, true_and, if_true]
        cases hp : t.p with
        | none => simpa [call, hp] using this
        | some p =>
          simp only [hp, Option.some_beq_none, Bool.not_false, Bool.and_true, Bool.and_eq_false_imp] at hc
          simp only [hp, Option.isSome_some, if_true] at this
          have hn : ¬ (T.assignable = true ∧ tr.eq t.alloc k.alloc = true) := fun h => by simp [hc h.1] at h
          simpa [call, hn] using this
  | assignMove x y =>
    obtain ⟨t, ht⟩ := live_hs hl.1
    obtain ⟨k, hk⟩ := live_hs hl.2
    simp only [Spec.allocCost, Spec.deallocCost, Spec.opCost, has_eq I hk, has_eq I ht, sameAlloc_eq ht hk]
    by_cases hxy : x = y
    · simp only [hxy, ne_eq, not_true_eq_false, false_and, if_false]
      exact costs_silent (s₁ := s.enter e) (by simp [call, step, assignMove, M.bind_eq, M.noexceptIf]; rfl) rfl
    cases hq : k.p with
    | none =>
      have := costs_freed (assignMove_null (T := T) (s := s.enter e) I' hxy ht hk hq) (s := s) rfl
      simpa [call, hxy] using this
    | some q =>
      obtain ⟨w, hw⟩ := I.own' hk hq
      by_cases he : tr.eq t.alloc k.alloc = true
      · have := costs_freed (assignMove_steal (T := T) (s := s.enter e) S I' hxy ht hk hq he) (s := s) rfl
        simpa [call, hxy, he] using this
      · have he : tr.eq t.alloc k.alloc = false := by simpa using he
        simp only [call]
        rw [assignMove_replace (T := T) (s := s.enter e) I' hxy ht hk hq hw he]
        have := costs_replaced (tr := tr) (s := s) (e := e) (x := x)
          (s₁ := leave (s.enter e) q (tr.res k.alloc) (T.move w (e.choice 0)).2)
          (a := if tr.pocma then k.alloc else t.alloc) (how := .moveOf q) (r := (T.move w (e.choice 0)).1)
          rfl rfl rfl (fresh_ne I ht)
        simp only [hxy, he, Option.isSome_some, ne_eq, not_false_eq_true, true_and, and_self, Bool.false_eq_true, if_true]
        exact costs_noexcept this
  | assignFrom x u =>
    obtain ⟨t, ht⟩ := live_hs hl.1
    simp only [Spec.allocCost, Spec.deallocCost, Spec.opCost, has_eq I ht]
    cases hp : t.p with
    | none =>
      cases u with
      | arg u => exact costs_created (assignFrom_null_arg (s := s.enter e) ht hp) rfl rfl
      | lval y =>
        obtain ⟨k, q, r, v, hk, hq, hv⟩ := engaged_hs hl.2
        exact costs_created (assignFrom_null_copy (s := s.enter e) ht hp hk hq hv) rfl rfl
      | rval y =>
        obtain ⟨k, q, r, v, hk, hq, hv⟩ := engaged_hs hl.2
        exact costs_created (assignFrom_null_move (s := s.enter e) ht hp hk hq hv) rfl rfl
    | some p =>
      obtain ⟨d, hd⟩ := I.own' ht hp
      cases u with
      | arg u => exact costs_assigned (assignFrom_some_arg (s := s.enter e) ht hp hd) rfl rfl
      | lval y =>
        obtain ⟨k, q, r, v, hk, hq, hv⟩ := engaged_hs hl.2
        exact costs_assigned (assignFrom_some_copy (s := s.enter e) ht hp hd hk hq hv) rfl rfl
      | rval y =>
        obtain ⟨k, q, r, v, hk, hq, hv⟩ := engaged_hs hl.2
        exact costs_assigned (assignFrom_some_move (s := s.enter e) ht hp hd hk hq hv) rfl rfl
  | deref x =>
    obtain ⟨k, q, r, v, hk, hq, hv⟩ := engaged_hs hl
    exact costs_silent (deref_eval (s := s.enter e) hk hq hv) rfl
  | arrow x =>
    obtain ⟨k, q, r, v, hk, hq, hv⟩ := engaged_hs hl
    exact costs_silent (arrow_eval (s := s.enter e) hk hq hv) rfl
  | modify x f =>
    obtain ⟨k, q, r, v, hk, hq, hv⟩ := engaged_hs hl
    exact costs_silent (modify_eval (s := s.enter e) hk hq hv) rfl
  | valueless x =>
    obtain ⟨k, hk⟩ := live_hs hl
    exact costs_silent (valueless_step (s := s.enter e) hk) rfl
  | getAllocator x =>
    obtain ⟨k, hk⟩ := live_hs hl
    exact costs_silent (getAllocator_step (s := s.enter e) hk) rfl
  | swap x y =>
    obtain ⟨bx, bcy, h1, h2, h3⟩ := hl
    obtain ⟨p, hp⟩ := alive h1
    obtain ⟨q, hq⟩ := alive h2
    exact costs_silent (swap_eval (s := s.enter e) hp hq h3) rfl
  | friendSwap x y =>
    obtain ⟨bx, bcy, h1, h2, h3⟩ := hl
    obtain ⟨p, hp⟩ := alive h1
    obtain ⟨q, hq⟩ := alive h2
    simp only [call]
    rw [friendSwap_swap]
    exact costs_silent (swap_eval (s := s.enter e) hp hq h3) rfl

/-- A failed construction. -/
def FailedNew (T : TSpec V X) (s s' : St L A R (Obj V)) (e : Env) (o : Op L A V X) : Prop :=
  s'.hs = s.hs ∧
  (s'.trace = s.trace ∨ ∃ r p, s'.trace = s.trace ++ [.alloc r p, .dealloc r p]) ∧
  (s'.heap = s.heap ∨ ∃ y q v, Spec.movedFrom o = some y ∧ addr s y = some q ∧ Spec.valueOf (abs s) y = some v ∧
    s'.heap = Spec.leftWith s.heap q (T.move v (e.choice 0)).2)

theorem failed_created {m : Res (St L A R (Obj V)) (Out L A V)} {x : L} {a : A} {o : Out L A V} {how : How}
    {s₁ : St L A R (Obj V)} {r : Except Exn V} {op : Op L A V X}
    (hm : m = if available s e then madeFrom x a o how (tr.res a) (e.pick 0) s₁ r
      else .threw .badAlloc { s.enter e with ai := 1 })
    (h1 : s₁.hs = s.hs) (h3 : s₁.trace = s.trace)
    (h2 : s₁.heap = s.heap ∨ ∃ y q v, Spec.movedFrom op = some y ∧ addr s y = some q ∧
      Spec.valueOf (abs s) y = some v ∧ s₁.heap = Spec.leftWith s.heap q (T.move v (e.choice 0)).2) :
    ∀ ex s', m = .threw ex s' → FailedNew T s s' e op := by
  intro ex s' h
  cases (made_effect hm h1 h3).2.1 _ _ h with
  | noStorage _ _ h1 h4 h2 => exact ⟨h1, .inl h2, .inl h4⟩
  | ctorThrew p _ _ _ h1 h4 h5 => exact ⟨h1, .inr ⟨_, _, h5⟩, by rw [h4]; exact h2⟩

theorem valueOf_of {y : L} {k : Handle A} {q : Addr} {r : R} {v : V} (hk : s.hs y = some k) (hq : k.p = some q)
    (hv : s.heap q = some ⟨r, some v⟩) : Spec.valueOf (abs s) y = some v := by
  simp [Spec.valueOf, abs, absWith, hk, hq, hv]

theorem failed_moveA (I : IInv tr s) {x y : L} {a : A} {k : Handle A} (hx : s.hs x = none) (hk : s.hs y = some k)
    {op : Op L A V X} (ho : Spec.movedFrom op = some y) :
    ∀ ex s', call tr (plain T) (.moveA x a y) e s = .threw ex s' → FailedNew T s s' e op := by
  by_cases h : tr.alwaysEqual = true ∨ tr.eq a k.alloc = true
  · simp [call, moveA_steal (T := T) (s := s.enter e) hx hk h]
  · simp only [not_or, Bool.not_eq_true] at h
    cases hp : k.p with
    | none => simp [call, moveA_null (T := T) (s := s.enter e) hx hk hp h.1 h.2]
    | some q =>
      obtain ⟨w, hw⟩ := I.own' hk hp
      refine failed_created (moveA_eval (s := s.enter e) hx hk hp hw h.1 h.2) rfl rfl
        (.inr ⟨y, q, w, ho, by rw [addr_of hk, hp], valueOf_of hk hp hw, ?_⟩)
      rw [leftWith_eq hw]; rfl

theorem failed_copyA (I : IInv tr s) {x y : L} {a : A} {k : Handle A} (hx : s.hs x = none) (hk : s.hs y = some k)
    {op : Op L A V X} :
    ∀ ex s', call tr (plain T) (.copyA x a y) e s = .threw ex s' → FailedNew T s s' e op := by
  cases hp : k.p with
  | none => simp [call, copyA_null (T := T) (s := s.enter e) hx hk hp]
  | some q =>
    obtain ⟨w, hw⟩ := I.own' hk hp
    exact failed_created (copyA_eval (s := s.enter e) hx hk hp hw) rfl rfl (.inl rfl)

theorem call_failedNew (I : IInv tr s) {o : Op L A V X} {x : L} (hl : Spec.Legal tr (abs s) o)
    (hn : Spec.newObject o = some x) :
    ∀ ex s', call tr (plain T) o e s = .threw ex s' → FailedNew T s s' e o := by
  have I' : IInv tr (s.enter e) := I
  cases o with
  | make x a c =>
    have hx := dead_hs hl.1
    have hc : ∀ u : Src L X, Spec.LegalSrc (abs s) u → Spec.origin c = Spec.originOf u →
        (∀ y, u = .rval y → Spec.movedFrom (.make x a c : Op L A V X) = some y) →
        ∀ ex s', call tr (plain T) (.make x a c) e s = .threw ex s' → FailedNew T s s' e (.make x a c) := by
      intro u hu hc hm
      cases u with
      | arg u => exact failed_created (make_eval_args (s := s.enter e) hx hc) rfl rfl (.inl rfl)
      | lval y =>
        obtain ⟨k, q, r, v, hk, hq, hv⟩ := engaged_hs hu
        exact failed_created (make_eval_copy (s := s.enter e) hx hc hk hq hv) rfl rfl (.inl rfl)
      | rval y =>
        obtain ⟨k, q, r, v, hk, hq, hv⟩ := engaged_hs hu
        refine failed_created (make_eval_move (s := s.enter e) hx hc hk hq hv) rfl rfl
          (.inr ⟨y, q, v, hm y rfl, by rw [addr_of hk, hq], valueOf_of hk hq hv, ?_⟩)
        rw [leftWith_eq hv]; rfl
    cases c with
    | «from» u => exact hc u hl.2 rfl (by rintro y rfl; rfl)
    | inPlaceOne u => exact hc u hl.2 rfl (by rintro y rfl; rfl)
    | default => exact failed_created (make_eval_args (s := s.enter e) hx rfl) rfl rfl (.inl rfl)
    | inPlace us => exact failed_created (make_eval_args (s := s.enter e) hx rfl) rfl rfl (.inl rfl)
    | ilist l us => exact failed_created (make_eval_args (s := s.enter e) hx rfl) rfl rfl (.inl rfl)
  | copy x y =>
    obtain ⟨k, hk⟩ := live_hs hl.2
    have := failed_copyA (T := T) (e := e) I (a := tr.socc k.alloc) (dead_hs hl.1) hk (op := .copy x y)
    simp only [call] at this ⊢
    rwa [copy_copyA (s := s.enter e) hk]
  | copyA x a y =>
    obtain ⟨k, hk⟩ := live_hs hl.2
    exact failed_copyA I (dead_hs hl.1) hk
  | move x y =>
    obtain ⟨k, hk⟩ := live_hs hl.2
    have := failed_moveA (T := T) (e := e) I (a := k.alloc) (dead_hs hl.1) hk (op := .move x y) rfl
    simp only [call] at this ⊢
    rwa [move_moveA (s := s.enter e) hk]
  | moveA x a y =>
    obtain ⟨k, hk⟩ := live_hs hl.2
    exact failed_moveA I (dead_hs hl.1) hk rfl
  | _ => cases hn

end
end Verif.Indirect
