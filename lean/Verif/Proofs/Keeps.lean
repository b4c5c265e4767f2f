import Verif.Proofs.Basic
import Verif.Spec.Trace

/-! State predicates kept by every computation built from the primitives; the trace follows the protocol. -/

set_option autoImplicit false
set_option linter.unusedSectionVars false
set_option linter.unusedSimpArgs false

namespace Verif

/-- The predicate holds in the final state, if there is one. -/
def Res.All {σ α : Type} (P : σ → Prop) : Res σ α → Prop
  | .ok _ s => P s
  | .threw _ s => P s
  | _ => True

/-- The computation keeps the predicate, whether it returns or throws. -/
def Keeps {σ α : Type} (P : σ → Prop) (m : M σ α) : Prop := ∀ s, P s → (m s).All P

section
variable {σ α β : Type} {P : σ → Prop}

theorem keeps_pure (a : α) : Keeps P (pure a : M σ α) := fun _ h => h

theorem keeps_throwE (e : Exn) : Keeps P (M.throwE e : M σ α) := fun _ h => h

theorem keeps_undef (u : UB) : Keeps P (M.undef u : M σ α) := fun _ _ => trivial

theorem keeps_diverge : Keeps P (M.diverge : M σ α) := fun _ _ => trivial

theorem keeps_bind {m : M σ α} {f : α → M σ β} (hm : Keeps P m) (hf : ∀ a, Keeps P (f a)) :
    Keeps P (m >>= f) := by
  intro s h
  have := hm s h
  rw [M.bind_eq]
  cases e : m s <;> rw [e] at this
  · exact hf _ _ this
  · exact this
  all_goals trivial

theorem keeps_onThrow {m : M σ α} {c : M σ Unit} (hm : Keeps P m) (hc : Keeps P c) :
    Keeps P (M.onThrow m c) := by
  intro s h
  have := hm s h
  unfold M.onThrow
  cases e : m s with
  | threw x s' =>
    rw [e] at this
    have := hc s' this
    cases e' : c s' <;> simp only [e'] at this ⊢ <;> exact this
  | ok a s' => rw [e] at this; exact this
  | terminated => trivial
  | ub u => trivial
  | diverged => trivial

theorem keeps_noexcept {b : Bool} {m : M σ α} (hm : Keeps P m) : Keeps P (M.noexceptIf b m) := by
  intro s h
  have := hm s h
  unfold M.noexceptIf
  cases e : m s with
  | threw x s' =>
    rw [e] at this
    cases b
    · exact this
    · trivial
  | ok a s' => rw [e] at this; exact this
  | terminated => trivial
  | ub u => trivial
  | diverged => trivial

theorem keeps_ite {c : Prop} [Decidable c] {m n : M σ α} (hm : Keeps P m) (hn : Keeps P n) :
    Keeps P (if c then m else n) := by split <;> assumption

end

section
variable {L A R B : Type} [DecidableEq L] [DecidableEq R] [Body B]

/-- What the trace should say about the heap. -/
def shape (heap : Addr → Option (Cell R B)) : Spec.Mem R := fun p =>
  (heap p).map fun c => ⟨c.arena, Body.occupied c.body⟩

/-- The trace follows the protocol and describes the heap. -/
def TraceOk (s : St L A R B) : Prop := Spec.replay s.trace = some (shape s.heap)

theorem replayFrom_append (m : Spec.Mem R) (t u : List (Ev R)) :
    Spec.replayFrom m (t ++ u) = (Spec.replayFrom m t).bind fun m' => Spec.replayFrom m' u := by
  induction t generalizing m with
  | nil => rfl
  | cons ev t ih =>
    simp only [List.cons_append, Spec.replayFrom]
    cases Spec.obey m ev with
    | none => rfl
    | some m' => exact ih m'

theorem replay_snoc {t : List (Ev R)} {m m' : Spec.Mem R} {ev : Ev R}
    (h : Spec.replay t = some m) (h' : Spec.obey m ev = some m') : Spec.replay (t ++ [ev]) = some m' := by
  unfold Spec.replay at *
  rw [replayFrom_append, h]
  simp [Spec.replayFrom, h']

theorem shape_upd (heap : Addr → Option (Cell R B)) (p : Addr) (c : Option (Cell R B)) :
    shape (upd heap p c) =
      Spec.setBlk (shape heap) p (c.map fun c => ⟨c.arena, Body.occupied c.body⟩) := by
  funext q; simp only [shape, upd, Spec.setBlk]; split <;> rfl

theorem keeps_handles {α : Type} {m : M (St L A R B) α}
    (h : ∀ s, match m s with
      | .ok _ s' => s'.heap = s.heap ∧ s'.trace = s.trace
      | .threw _ s' => s'.heap = s.heap ∧ s'.trace = s.trace
      | _ => True) : Keeps TraceOk m := by
  intro s hs
  have := h s
  cases e : m s <;> rw [e] at this
  · show TraceOk _; unfold TraceOk; rw [this.1, this.2]; exact hs
  · show TraceOk _; unfold TraceOk; rw [this.1, this.2]; exact hs
  all_goals trivial

theorem keeps_getH (l : L) : Keeps TraceOk (getH l : M (St L A R B) _) := by
  apply keeps_handles; intro s; unfold getH; cases s.hs l <;> simp

theorem keeps_setP (l : L) (p : Option Addr) : Keeps TraceOk (setP l p : M (St L A R B) _) := by
  apply keeps_handles; intro s; unfold setP; cases s.hs l <;> simp

theorem keeps_setAlloc (l : L) (a : A) : Keeps TraceOk (setAlloc l a : M (St L A R B) _) := by
  apply keeps_handles; intro s; unfold setAlloc; cases s.hs l <;> simp

theorem keeps_emplace (l : L) (h : Handle A) : Keeps TraceOk (emplace l h : M (St L A R B) _) := by
  apply keeps_handles; intro s; unfold emplace; cases s.hs l <;> simp

theorem keeps_endLife (l : L) : Keeps TraceOk (endLife l : M (St L A R B) _) := by
  apply keeps_handles; intro s; unfold endLife; cases s.hs l <;> simp

theorem keeps_choose : Keeps TraceOk (choose : M (St L A R B) _) := by
  apply keeps_handles; intro s; simp [choose]

theorem keeps_readBody (p : Addr) : Keeps TraceOk (readBody p : M (St L A R B) _) := by
  apply keeps_handles; intro s; unfold readBody; cases s.heap p <;> simp

variable (hraw : Body.occupied (Body.raw : B) = false)

include hraw in
theorem keeps_allocate (r : R) : Keeps TraceOk (allocate r : M (St L A R B) _) := by
  intro s hs
  rw [allocate_eq]
  split
  · rename_i h
    have hn : s.heap (s.env.pick s.ai) = none := by simp [memOk] at h; exact h.2
    show TraceOk _
    unfold TraceOk
    refine replay_snoc hs ?_
    have : shape s.heap (s.env.pick s.ai) = none := by simp [shape, hn]
    simp [Spec.obey, this, shape_upd, hraw]
  · exact hs

theorem keeps_deallocate (r : R) (p : Addr) : Keeps TraceOk (deallocate r p : M (St L A R B) _) := by
  intro s hs
  unfold deallocate
  cases hp : s.heap p with
  | none => trivial
  | some c =>
    simp only
    split
    · trivial
    · split
      · trivial
      · rename_i h1 h2
        refine replay_snoc hs ?_
        have : shape s.heap p = some ⟨r, false⟩ := by
          simp at h1 h2; simp [shape, hp, h1, h2]
        simp [Spec.obey, this, shape_upd]

end

section
variable {R : Type} [DecidableEq R]

/-- In a trace that follows the protocol, allocations are deallocations plus the block still held. -/
theorem replayFrom_alloc_balance {t : List (Ev R)} {m m' : Spec.Mem R} (h : Spec.replayFrom m t = some m')
    (p : Addr) :
    Spec.allocsAt p t + (if (m p).isSome then 1 else 0) =
      Spec.deallocsAt p t + (if (m' p).isSome then 1 else 0) := by
  induction t generalizing m with
  | nil => simp [Spec.replayFrom] at h; subst h; simp [Spec.allocsAt, Spec.deallocsAt]
  | cons ev t ih =>
    simp only [Spec.replayFrom] at h
    cases ho : Spec.obey m ev with
    | none => simp [ho] at h
    | some m₁ =>
      simp only [ho] at h
      have ih := ih h
      cases ev with
      | alloc r q =>
        simp only [Spec.obey] at ho
        split at ho
        · simp at ho; subst ho
          simp only [Spec.allocsAt, Spec.deallocsAt, Spec.setBlk] at ih ⊢
          by_cases e : q = p
          · subst e; simp_all; omega
          · have e' : ¬ p = q := fun h => e h.symm
            simp only [e', if_false, e] at ih ⊢; omega
        · simp at ho
      | dealloc r q =>
        simp only [Spec.obey] at ho
        split at ho
        · simp at ho; subst ho
          simp only [Spec.allocsAt, Spec.deallocsAt, Spec.setBlk] at ih ⊢
          by_cases e : q = p
          · subst e; simp_all; omega
          · have e' : ¬ p = q := fun h => e h.symm
            simp only [e', if_false, e] at ih ⊢; omega
        · simp at ho
      | construct q how =>
        simp only [Spec.obey] at ho
        split at ho
        · split at ho
          · simp at ho; subst ho
            simp only [Spec.allocsAt, Spec.deallocsAt, Spec.setBlk] at ih ⊢
            by_cases e : p = q
            · subst e; simp_all
            · simpa [e] using ih
          · simp at ho
        · simp at ho
      | custom c k r q =>
        simp only [Spec.obey] at ho
        simp at ho; subst ho; exact ih
      | assign q how =>
        simp only [Spec.obey] at ho
        split at ho
        · simp at ho; subst ho; exact ih
        · simp at ho
      | destroy q =>
        simp only [Spec.obey] at ho
        split at ho
        · simp at ho; subst ho
          simp only [Spec.allocsAt, Spec.deallocsAt, Spec.setBlk] at ih ⊢
          by_cases e : p = q
          · subst e; simp_all
          · simpa [e] using ih
        · simp at ho

theorem liveAt_setBlk (m : Spec.Mem R) (q : Addr) (b : Option (Spec.Blk R)) (p : Addr) :
    Spec.liveAt (Spec.setBlk m q b) p = if p = q then (b.map (·.live)).getD false else Spec.liveAt m p := by
  unfold Spec.liveAt Spec.setBlk
  by_cases h : p = q
  · simp only [h, if_true]; cases b <;> rfl
  · simp only [h, if_false]

/-- Likewise constructions are destructions plus the object still alive. -/
theorem replayFrom_construct_balance {t : List (Ev R)} {m m' : Spec.Mem R}
    (h : Spec.replayFrom m t = some m') (p : Addr) :
    Spec.constructsAt p t + (if Spec.liveAt m p then 1 else 0) =
      Spec.destroysAt p t + (if Spec.liveAt m' p then 1 else 0) := by
  induction t generalizing m with
  | nil => simp [Spec.replayFrom] at h; subst h; simp [Spec.constructsAt, Spec.destroysAt]
  | cons ev t ih =>
    simp only [Spec.replayFrom] at h
    cases ho : Spec.obey m ev with
    | none => simp [ho] at h
    | some m₁ =>
      simp only [ho] at h
      have ih := ih h
      cases ev with
      | alloc r q =>
        simp only [Spec.obey] at ho
        split at ho
        · rename_i hq
          simp at ho; subst ho
          simp only [Spec.constructsAt, Spec.destroysAt, liveAt_setBlk] at ih ⊢
          by_cases e : p = q
          · subst e; simp [Spec.liveAt, hq] at ih ⊢; exact ih
          · simpa only [e, if_false] using ih
        · simp at ho
      | dealloc r q =>
        simp only [Spec.obey] at ho
        split at ho
        · rename_i hq
          simp at ho; subst ho
          simp only [Spec.constructsAt, Spec.destroysAt, liveAt_setBlk] at ih ⊢
          by_cases e : p = q
          · subst e; simp [Spec.liveAt, hq] at ih ⊢; exact ih
          · simpa only [e, if_false] using ih
        · simp at ho
      | construct q how =>
        simp only [Spec.obey] at ho
        split at ho
        · rename_i hq
          split at ho
          · simp at ho; subst ho
            simp only [Spec.constructsAt, Spec.destroysAt, liveAt_setBlk] at ih ⊢
            by_cases e : q = p
            · subst e
              simp only [Spec.liveAt, hq] at ih ⊢
              simp at ih ⊢; omega
            · have e' : ¬ p = q := fun h => e h.symm
              simp only [e', if_false, e] at ih ⊢; omega
          · simp at ho
        · simp at ho
      | custom c k r q =>
        simp only [Spec.obey] at ho
        simp at ho; subst ho; exact ih
      | assign q how =>
        simp only [Spec.obey] at ho
        split at ho
        · simp at ho; subst ho; exact ih
        · simp at ho
      | destroy q =>
        simp only [Spec.obey] at ho
        split at ho
        · rename_i hq
          simp at ho; subst ho
          simp only [Spec.constructsAt, Spec.destroysAt, liveAt_setBlk] at ih ⊢
          by_cases e : q = p
          · subst e
            simp only [Spec.liveAt, hq] at ih ⊢
            simp at ih ⊢; omega
          · have e' : ¬ p = q := fun h => e h.symm
            simp only [e', if_false, e] at ih ⊢; omega
        · simp at ho

end
end Verif
