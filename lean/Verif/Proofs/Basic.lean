import Verif.Spec.Box

/-! Helper lemmas: evaluation of the machine's primitives and of the auxiliary functions of `indirect`. -/

set_option autoImplicit false
set_option linter.unusedSectionVars false
set_option linter.unusedSimpArgs false

namespace Verif

@[simp] theorem upd_same {α β : Type} [DecidableEq α] (f : α → β) (a : α) (b : β) : upd f a b a = b := by
  simp [upd]

theorem upd_other {α β : Type} [DecidableEq α] (f : α → β) {a x : α} (b : β) (h : x ≠ a) :
    upd f a b x = f x := by simp [upd, h]

@[simp] theorem upd_upd {α β : Type} [DecidableEq α] (f : α → β) (a : α) (b c : β) :
    upd (upd f a b) a c = upd f a c := by
  funext x; simp only [upd]; split <;> rfl

theorem upd_id {α β : Type} [DecidableEq α] (f : α → β) (a : α) (b : β) (h : f a = b) :
    upd f a b = f := by
  funext x; simp only [upd]; split
  · subst_vars; rfl
  · rfl

namespace M
variable {σ α β : Type}

theorem bind_eq (m : M σ α) (f : α → M σ β) (s : σ) :
    (m >>= f) s = match m s with
      | .ok a s' => f a s'
      | .threw e s' => .threw e s'
      | .terminated => .terminated
      | .ub u => .ub u
      | .diverged => .diverged := rfl

@[simp] theorem pure_eq (a : α) (s : σ) : (pure a : M σ α) s = .ok a s := rfl

@[simp] theorem throwE_eq (e : Exn) (s : σ) : (throwE e : M σ α) s = .threw e s := rfl
@[simp] theorem undef_eq (u : UB) (s : σ) : (undef u : M σ α) s = .ub u := rfl
@[simp] theorem diverge_eq (s : σ) : (diverge : M σ α) s = .diverged := rfl

theorem ite_app (c : Prop) [Decidable c] (m n : M σ α) (s : σ) :
    (if c then m else n) s = if c then m s else n s := by split <;> rfl

/-- Run past a computation that returns normally. -/
theorem bind_ok {m : M σ α} {f : α → M σ β} {s s' : σ} {a : α} (h : m s = .ok a s') :
    (m >>= f) s = f a s' := by rw [bind_eq, h]

theorem bind_threw {m : M σ α} {f : α → M σ β} {s s' : σ} {e : Exn} (h : m s = .threw e s') :
    (m >>= f) s = .threw e s' := by rw [bind_eq, h]

instance : LawfulMonad (M σ) := LawfulMonad.mk'
  (id_map := by
    intro α x; funext s
    show (x >>= fun a => pure (id a)) s = x s
    rw [bind_eq]
    cases x s <;> rfl)
  (pure_bind := by intros; rfl)
  (bind_assoc := by
    intro α β γ x f g; funext s
    simp only [bind_eq]
    cases x s <;> rfl)

end M

section
variable {L A R B : Type} [DecidableEq L] [DecidableEq R] [Body B]

theorem getH_some {l : L} {s : St L A R B} {h : Handle A} (e : s.hs l = some h) :
    getH l s = .ok h s := by simp [getH, e]

theorem setP_some {l : L} {s : St L A R B} {h : Handle A} (e : s.hs l = some h) (p : Option Addr) :
    setP l p s = .ok () { s with hs := upd s.hs l (some { h with p := p }) } := by simp [setP, e]

theorem setAlloc_some {l : L} {s : St L A R B} {h : Handle A} (e : s.hs l = some h) (a : A) :
    setAlloc l a s = .ok () { s with hs := upd s.hs l (some { h with alloc := a }) } := by
  simp [setAlloc, e]

theorem emplace_none {l : L} {s : St L A R B} (e : s.hs l = none) (h : Handle A) :
    emplace l h s = .ok () { s with hs := upd s.hs l (some h) } := by simp [emplace, e]

theorem endLife_some {l : L} {s : St L A R B} {h : Handle A} (e : s.hs l = some h) :
    endLife l s = .ok () { s with hs := upd s.hs l none } := by simp [endLife, e]

/-- Does the next allocation succeed in state `s`? -/
def memOk (s : St L A R B) : Bool := !s.env.fail s.ai && (s.heap (s.env.pick s.ai)).isNone

theorem allocate_eq (r : R) (s : St L A R B) :
    allocate r s =
      if memOk s then
        .ok (s.env.pick s.ai) { s with
          heap := upd s.heap (s.env.pick s.ai) (some ⟨r, Body.raw⟩)
          trace := s.trace ++ [.alloc r (s.env.pick s.ai)]
          ai := s.ai + 1 }
      else .threw .badAlloc { s with ai := s.ai + 1 } := by
  unfold allocate memOk
  cases hf : s.env.fail s.ai <;> cases hh : s.heap (s.env.pick s.ai) <;> simp [hf, hh]

end
end Verif
