import Verif.Proofs.IndirectReach
import Verif.Spec.Effects

/-! From exact final states to the vocabulary of `Spec/Effects.lean`. -/

set_option autoImplicit false
set_option linter.unusedSectionVars false
set_option linter.unusedSimpArgs false

namespace Verif.Indirect
open Verif

section
variable {L A R V X : Type} [DecidableEq L] [DecidableEq R]
variable {tr : ATraits A R} {T : TSpec V X} {s s' : St L A R (Obj V)} {e : Env}

theorem addr_some {x : L} {p : Addr} (h : addr s x = some p) : ∃ k, s.hs x = some k ∧ k.p = some p := by
  simp only [addr] at h
  cases hhx : s.hs x with
  | none => simp [hhx] at h
  | some k => exact ⟨k, rfl, by simpa [hhx] using h⟩

theorem addr_of {x : L} {k : Handle A} (h : s.hs x = some k) : addr s x = k.p := by simp [addr, h]

/-- An engaged object: its handle and block. -/
theorem engaged {y : L} {a : A} {v : V} (h : abs s y = some ⟨a, some v⟩) :
    ∃ q r, s.hs y = some ⟨some q, a⟩ ∧ s.heap q = some ⟨r, some v⟩ := by
  have hv : Spec.valueOf (abs s) y = some v := by simp [Spec.valueOf, h]
  obtain ⟨k, q, r, hk, hq, hh⟩ := abs_valueOf hv
  obtain ⟨k', hk', ha, _⟩ := abs_some h
  have : k' = k := by rw [hk] at hk'; simpa using hk'.symm
  subst this
  refine ⟨q, r, ?_, hh⟩
  rw [hk]; cases k'; simp_all

/-- A valueless object. -/
theorem disengaged (I : IInv tr s) {y : L} {a : A} (h : abs s y = some ⟨a, none⟩) :
    s.hs y = some ⟨none, a⟩ := by
  obtain ⟨k, hk, ha, hv⟩ := abs_some h
  cases hp : k.p with
  | none => rw [hk]; cases k; simp_all
  | some p =>
    obtain ⟨w, hw⟩ := I.own' hk hp
    simp [hp, hw] at hv

theorem alive {y : L} {b : Spec.Box A V} (h : abs s y = some b) : ∃ p, s.hs y = some ⟨p, b.alloc⟩ := by
  obtain ⟨k, hk, ha, hv⟩ := abs_some h
  exact ⟨k.p, by rw [hk]; cases k; simp_all⟩

theorem Reach.inv' (h : Reach tr T s) (S : tr.Sound) (e : Env) : IInv tr (s.enter e) :=
  have I := h.inv S
  I

theorem noexceptIf_ok_inv {σ α : Type} {b : Bool} {m : M σ α} {s s' : σ} {a : α}
    (h : M.noexceptIf b m s = .ok a s') : m s = .ok a s' := by
  simp only [M.noexceptIf] at h
  cases hm : m s <;> rw [hm] at h
  case threw => simp only at h; split at h <;> cases h
  all_goals first | exact h | cases h

theorem noexceptIf_threw_inv {σ α : Type} {b : Bool} {m : M σ α} {s s' : σ} {x : Exn}
    (h : M.noexceptIf b m s = .threw x s') : m s = .threw x s' := by
  simp only [M.noexceptIf] at h
  cases hm : m s <;> rw [hm] at h
  case threw =>
    simp only at h; split at h
    · cases h
    · exact h
  all_goals cases h

theorem available_eq : memOk (s.enter e) = available s e := rfl

theorem leftWith_eq {heap : Addr → Option (Cell R (Obj V))} {q : Addr} {r : R} {v w : V}
    (h : heap q = some ⟨r, some v⟩) : Spec.leftWith heap q w = upd heap q (some ⟨r, some w⟩) := by
  funext z; simp only [Spec.leftWith, upd]; split
  · simp [h]
  · rfl

/-- The result of building a new `T` for `x`. -/
theorem made_effect {x : L} {a : A} {o : Out L A V} {how : How} {s₁ : St L A R (Obj V)} {r : Except Exn V}
    {m : Res (St L A R (Obj V)) (Out L A V)}
    (hm : m = if available s e then madeFrom x a o how (tr.res a) (e.pick 0) s₁ r
      else .threw .badAlloc { s.enter e with ai := 1 })
    (h1 : s₁.hs = s.hs) (h3 : s₁.trace = s.trace) :
    (∀ out s', m = .ok out s' → out = o ∧ ∃ v p, r = .ok v ∧ available s e = true ∧
        Spec.Created tr s s' s₁.heap x a v p how) ∧
    (∀ ex s', m = .threw ex s' → Spec.CreateFailed tr s s' e s₁.heap a r ex) ∧
    ((∃ out s', m = .ok out s') ∨ ∃ ex s', m = .threw ex s') := by
  subst hm
  by_cases ha : available s e = true
  · have hf : s.heap (e.pick 0) = none := by simp [available] at ha; exact ha.2
    simp only [ha, if_true]
    cases r with
    | ok v =>
      simp only [madeFrom, Res.ok.injEq, reduceCtorEq, false_implies, implies_true, true_and]
      refine ⟨?_, .inl ⟨_, _, rfl, rfl⟩⟩
      rintro out s' ⟨rfl, rfl⟩
      refine ⟨rfl, v, e.pick 0, rfl, hf, by simp, by simp, ?_, ?_, by simp [h3]⟩
      · intro z hz; simp [upd_other _ _ hz, h1]
      · intro z hz; simp [upd_other _ _ hz]
    | error x =>
      simp only [madeFrom, Res.threw.injEq, reduceCtorEq, false_implies, implies_true, true_and]
      refine ⟨?_, .inr ⟨_, _, rfl, rfl⟩⟩
      rintro ex s' ⟨rfl, rfl⟩
      exact .ctorThrew (e.pick 0) ha rfl hf h1 rfl (by simp [h3])
  · simp only [ha, Bool.false_eq_true, if_false, Res.threw.injEq, reduceCtorEq, false_implies, implies_true, true_and]
    refine ⟨?_, .inr ⟨_, _, rfl, rfl⟩⟩
    rintro ex s' ⟨rfl, rfl⟩
    exact .noStorage (by simpa using ha) rfl rfl rfl rfl

theorem without_none (heap : Addr → Option (Cell R (Obj V))) : Spec.without heap none = heap := by
  funext z; simp [Spec.without]

theorem freedHeap_eq (heap : Addr → Option (Cell R (Obj V))) (t : Handle A) :
    freedHeap heap t = Spec.without heap t.p := by
  unfold freedHeap
  cases t.p with
  | none => rw [without_none]
  | some p => funext z; simp only [Spec.without, upd]; grind

theorem freedEvents_eq (t : Handle A) : freedEvents tr t = Spec.released tr t.p t.alloc := rfl

/-- The result of replacing the `T` of `x` by a new one. -/
theorem replaced_effect {x : L} {a : A} {t : Handle A} {how : How} {s₁ : St L A R (Obj V)}
    {r : Except Exn V} {m : Res (St L A R (Obj V)) (Out L A V)}
    (hm : m = if available s e then replacedBy tr x t a how (e.pick 0) s₁ r
      else .threw .badAlloc { s.enter e with ai := 1 })
    (h1 : s₁.hs = s.hs) (h3 : s₁.trace = s.trace) (ht : t.p ≠ some (e.pick 0) ∨ available s e = false) :
    (∀ out s', m = .ok out s' → out = .self x ∧ ∃ v p, r = .ok v ∧ available s e = true ∧
        Spec.Replaced tr s s' s₁.heap x t.p t.alloc a v p how) ∧
    (∀ ex s', m = .threw ex s' → Spec.CreateFailed tr s s' e s₁.heap a r ex) ∧
    ((∃ out s', m = .ok out s') ∨ ∃ ex s', m = .threw ex s') := by
  subst hm
  by_cases ha : available s e = true
  · have hf : s.heap (e.pick 0) = none := by simp [available] at ha; exact ha.2
    have ht : t.p ≠ some (e.pick 0) := by rcases ht with h | h; exact h; simp [ha] at h
    simp only [ha, if_true]
    cases r with
    | ok v =>
      simp only [replacedBy, Res.ok.injEq, reduceCtorEq, false_implies, implies_true, true_and]
      refine ⟨?_, .inl ⟨_, _, rfl, rfl⟩⟩
      rintro out s' ⟨rfl, rfl⟩
      refine ⟨rfl, v, e.pick 0, rfl, hf, by simp, ?_, ?_, ?_, by simp [h3, freedEvents_eq]⟩
      · simp [freedHeap_eq, Spec.without, ht]
      · intro z hz; simp [upd_other _ _ hz, h1]
      · intro z hz; simp [freedHeap_eq, Spec.without, upd_other _ _ hz]
    | error x =>
      simp only [replacedBy, Res.threw.injEq, reduceCtorEq, false_implies, implies_true, true_and]
      refine ⟨?_, .inr ⟨_, _, rfl, rfl⟩⟩
      rintro ex s' ⟨rfl, rfl⟩
      exact .ctorThrew (e.pick 0) ha rfl hf h1 rfl (by simp [h3])
  · simp only [ha, Bool.false_eq_true, if_false, Res.threw.injEq, reduceCtorEq, false_implies, implies_true, true_and]
    refine ⟨?_, .inr ⟨_, _, rfl, rfl⟩⟩
    rintro ex s' ⟨rfl, rfl⟩
    exact .noStorage (by simpa using ha) rfl rfl rfl rfl

theorem created_abs (I : IInv tr s) {x : L} {a : A} {v : V} {p : Addr} {how : How}
    (h : Spec.Created tr s s' s.heap x a v p how) : abs s' = Spec.put (abs s) x ⟨a, some v⟩ := by
  funext z
  simp only [Spec.put, abs, absWith]
  split
  · rename_i e; subst e; simp [h.owner, h.value]
  · rename_i hz
    rw [h.others z hz]
    cases hk : s.hs z with
    | none => rfl
    | some k =>
      cases hp : k.p with
      | none => simp [hp]
      | some q =>
        have : q ≠ p := by
          rintro rfl
          obtain ⟨w, hw⟩ := I.own' hk hp
          simp [h.fresh] at hw
        simp [hp, h.storage q this]

theorem call_ok_spec {o : Op L A V X} {out : Out L A V} (S : tr.Sound) (h : Reach tr T s) (hl : Spec.Legal tr (abs s) o)
    (hc : call tr (plain T) o e s = .ok out s') :
    Spec.step tr T (available s e) (e.choice 0) (abs s) o = .ret out (abs s') := by
  have R := call_refines (e := e) S h hl
  rw [hc] at R
  revert R
  cases Spec.step tr T (available s e) (e.choice 0) (abs s) o <;> simp only [Refines, false_implies]
  rintro ⟨rfl, rfl, _⟩; rfl

theorem call_threw_spec {o : Op L A V X} {ex : Exn} (S : tr.Sound) (h : Reach tr T s) (hl : Spec.Legal tr (abs s) o)
    (hc : call tr (plain T) o e s = .threw ex s') :
    Spec.step tr T (available s e) (e.choice 0) (abs s) o = .threw ex (abs s') := by
  have R := call_refines (e := e) S h hl
  rw [hc] at R
  revert R
  cases Spec.step tr T (available s e) (e.choice 0) (abs s) o <;> simp only [Refines, false_implies]
  rintro ⟨rfl, rfl, _⟩; rfl

theorem call_terminated_spec {o : Op L A V X} (S : tr.Sound) (h : Reach tr T s) (hl : Spec.Legal tr (abs s) o) :
    call tr (plain T) o e s = .terminated ↔
      Spec.step tr T (available s e) (e.choice 0) (abs s) o = .terminated := by
  have R := call_refines (e := e) S h hl
  revert R
  cases call tr (plain T) o e s <;> cases Spec.step tr T (available s e) (e.choice 0) (abs s) o <;>
    simp [Refines]

/-- The result of assigning in place. -/
theorem assigned_effect {x : L} {p : Addr} {how : How} {r : R} {a a' : A} {d w : V} {s₁ s₂ : St L A R (Obj V)}
    {ro : Option Exn} {m : Res (St L A R (Obj V)) (Out L A V)}
    (hm : m = assignedTo x p how r d s₁ s₂ ro)
    (h1 : s₁.hs = s.hs) (h1t : s₁.trace = s.trace)
    (hx : s.hs x = some ⟨some p, a⟩) (hx₂ : s₂.hs x = some ⟨some p, a'⟩) (h2 : ∀ z, z ≠ x → s₂.hs z = s.hs z)
    (h2h : s₂.heap = s₁.heap) (hp : s.heap p = some ⟨r, some w⟩) :
    (∀ out s', m = .ok out s' → out = .self x ∧ ro = none ∧ Spec.Assigned s s' s₁.heap x a' p d how) ∧
    (∀ ex s', m = .threw ex s' → ro = some ex ∧ Spec.Assigned s s' s₁.heap x a p d how) ∧
    ((∃ out s', m = .ok out s') ∨ ∃ ex s', m = .threw ex s') := by
  subst hm
  cases ro with
  | none =>
    simp only [assignedTo, Res.ok.injEq, reduceCtorEq, false_implies, implies_true, true_and]
    refine ⟨?_, .inl ⟨_, _, rfl, rfl⟩⟩
    rintro out s' ⟨rfl, rfl⟩
    refine ⟨rfl, hx₂, ⟨r, w, hp, by simp⟩, h2, ?_, by simp [h1t]⟩
    intro q hq; simp [upd_other _ _ hq, h2h]
  | some ex =>
    simp only [assignedTo, Res.threw.injEq, reduceCtorEq, false_implies, implies_true, true_and]
    refine ⟨?_, .inr ⟨_, _, rfl, rfl⟩⟩
    rintro ex' s' ⟨rfl, rfl⟩
    refine ⟨rfl, by simp [h1, hx], ⟨r, w, hp, by simp⟩, by simp [h1], ?_, by simp [h1t]⟩
    intro q hq; simp [upd_other _ _ hq]

end
end Verif.Indirect
