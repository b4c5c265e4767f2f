import Verif.Proofs.Basic

set_option autoImplicit false
set_option linter.unusedSectionVars false
set_option linter.unusedSimpArgs false

namespace Verif.Indirect
open Verif

section
variable {L A R V X : Type} [DecidableEq L] [DecidableEq R]
variable (tr : ATraits A R) (T : TSpec V X)

/-- Closed form of the outcome of `constructFrom` once storage `p` was obtained and the constructor of
`T` came to the outcome given as last argument. -/
def placed (r : R) (p : Addr) (how : How) (s : St L A R (Obj V)) :
    Except Exn V → Res (St L A R (Obj V)) Addr
  | .ok v => .ok p { s with
      heap := upd s.heap p (some ⟨r, some v⟩)
      trace := s.trace ++ [.alloc r p, .construct p how] }
  | .error e => .threw e { s with trace := s.trace ++ [.alloc r p, .dealloc r p] }

theorem constructFrom_finish (a : A) (k : A → Addr → M (St L A R (Obj V)) Unit)
    (s : St L A R (Obj V)) (how : How) (r : Except Exn V) (s₁ : St L A R (Obj V))
    (hk : memOk s = true →
      k a (s.env.pick s.ai) { s with
          heap := upd s.heap (s.env.pick s.ai) (some ⟨tr.res a, none⟩)
          trace := s.trace ++ [.alloc (tr.res a) (s.env.pick s.ai)]
          ai := s.ai + 1 } =
        finish (s.env.pick s.ai) how r { s₁ with
          heap := upd s₁.heap (s.env.pick s.ai) (some ⟨tr.res a, none⟩)
          trace := s₁.trace ++ [.alloc (tr.res a) (s.env.pick s.ai)] })
    (hs : memOk s = true → s₁.heap (s.env.pick s.ai) = none) :
    constructFrom tr a k s =
      if memOk s then placed (tr.res a) (s.env.pick s.ai) how s₁ r
      else .threw .badAlloc { s with ai := s.ai + 1 } := by
  unfold constructFrom
  rw [M.bind_eq, allocate_eq]
  by_cases hm : memOk s = true
  · simp only [hm, if_true]
    have hk := hk hm
    have hn := hs hm
    simp only [M.bind_eq, M.onThrow, Body.raw] at hk ⊢
    rw [hk]
    cases r with
    | ok v => simp [finish, beginObj, placed]
    | error e =>
      simp [finish, deallocate, Body.occupied, placed, upd_id _ _ _ hn]
  · simp [hm]

theorem constructFrom_make (a : A) (xs : TArgs X) (s : St L A R (Obj V)) :
    constructFrom tr a (fun a m => (plain T).make a m xs) s =
      if memOk s then
        placed (tr.res a) (s.env.pick s.ai) .args { s with ai := s.ai + 1, ti := s.ti + 1 }
          (T.make xs (s.env.choice s.ti))
      else .threw .badAlloc { s with ai := s.ai + 1 } := by
  refine constructFrom_finish tr a _ s .args _ { s with ai := s.ai + 1, ti := s.ti + 1 } ?_ ?_
  · intro _; rfl
  · intro h; simp [memOk] at h; exact h.2

theorem constructFrom_copy (a : A) (q : Addr) (s : St L A R (Obj V)) (r : R) (v : V)
    (hq : s.heap q = some ⟨r, some v⟩) :
    constructFrom tr a (fun a m => (plain T).copyCtor a m q) s =
      if memOk s then
        placed (tr.res a) (s.env.pick s.ai) (.copyOf q) { s with ai := s.ai + 1, ti := s.ti + 1 }
          (T.copy v (s.env.choice s.ti))
      else .threw .badAlloc { s with ai := s.ai + 1 } := by
  refine constructFrom_finish tr a _ s (.copyOf q) _ { s with ai := s.ai + 1, ti := s.ti + 1 } ?_ ?_
  · intro h
    have : q ≠ s.env.pick s.ai := by
      rintro rfl; simp [memOk, hq] at h
    simp [plain, M.bind_eq, readObj, readBody, choose, upd_other _ _ this, hq]
  · intro h; simp [memOk] at h; exact h.2

theorem constructFrom_move (a : A) (q : Addr) (s : St L A R (Obj V)) (r : R) (v : V)
    (hq : s.heap q = some ⟨r, some v⟩) :
    constructFrom tr a (fun a m => (plain T).moveCtor a m q) s =
      if memOk s then
        placed (tr.res a) (s.env.pick s.ai) (.moveOf q)
          { s with heap := upd s.heap q (some ⟨r, some (T.move v (s.env.choice s.ti)).2⟩)
                   ai := s.ai + 1, ti := s.ti + 1 }
          (T.move v (s.env.choice s.ti)).1
      else .threw .badAlloc { s with ai := s.ai + 1 } := by
  refine constructFrom_finish tr a _ s (.moveOf q) _
    { s with heap := upd s.heap q (some ⟨r, some (T.move v (s.env.choice s.ti)).2⟩)
             ai := s.ai + 1, ti := s.ti + 1 } ?_ ?_
  · intro h
    have hne : q ≠ s.env.pick s.ai := by
      rintro rfl; simp [memOk, hq] at h
    have : ∀ b c, upd (upd s.heap (s.env.pick s.ai) b) q c = upd (upd s.heap q c) (s.env.pick s.ai) b := by
      intro b c; funext z; simp only [upd]; grind
    simp [plain, M.bind_eq, readObj, readBody, writeObj, writeBody, choose, upd_other _ _ hne, hq, this]
  · intro h
    have hne : s.env.pick s.ai ≠ q := by
      rintro rfl; simp [memOk, hq] at h
    simp [memOk] at h
    simp [upd_other _ _ hne, h.2]

theorem reset_null {l : L} {s : St L A R (Obj V)} {h : Handle A} (e : s.hs l = some h)
    (hp : h.p = none) : reset tr (plain T) l s = .ok () s := by
  simp [reset, M.noexceptIf, M.bind_eq, getH, e, hp]

theorem reset_some {l : L} {s : St L A R (Obj V)} {h : Handle A} {p : Addr} {v : V}
    (e : s.hs l = some h) (hp : h.p = some p) (hh : s.heap p = some ⟨tr.res h.alloc, some v⟩) :
    reset tr (plain T) l s = .ok () { s with
      heap := upd s.heap p none
      hs := upd s.hs l (some { h with p := none })
      trace := s.trace ++ [.destroy p, .dealloc (tr.res h.alloc) p] } := by
  simp [reset, M.noexceptIf, M.bind_eq, getH, e, hp, destroyWith, plain, endObj, readObj, readBody, hh,
    writeBody, emit, deallocate, Body.occupied, setP]

end
end Verif.Indirect
