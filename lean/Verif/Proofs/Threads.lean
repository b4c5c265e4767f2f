import Verif.Spec.Threads
import Verif.Proofs.Local
import Verif.Proofs.TraceFacts

/-! Threads that do not change what the others use do not notice each other. -/

set_option autoImplicit false
set_option linter.unusedSectionVars false
set_option linter.unusedSimpArgs false

namespace Verif
open Indirect (Agree RAgree)
open Spec (ofThread callsOf lucksWith)

/-- What the argument needs to know about a class. -/
structure Api (L A R B V Op : Type) [DecidableEq L] where
  call : Op → Env → St L A R B → Res (St L A R B) (Out L A V)
  abs : St L A R B → Spec.Boxes L A V
  Reach : St L A R B → Prop
  legal : Spec.Boxes L A V → Op → Prop
  operands : Op → List L
  changes : Op → List L
  step : Bool → Nat → Spec.Boxes L A V → Op → Spec.Result L A V
  ret : ∀ {s s' o e out}, Reach s → legal (abs s) o → call o e s = .ok out s' → Reach s'
  threw : ∀ {s s' o e x}, Reach s → legal (abs s) o → call o e s = .threw x s' → Reach s'
  refines : ∀ {s o} (e), Reach s → legal (abs s) o → match call o e s with
    | .ok out s' => step (available s e) (e.choice 0) (abs s) o = .ret out (abs s')
    | .threw x s' => step (available s e) (e.choice 0) (abs s) o = .threw x (abs s')
    | .terminated => step (available s e) (e.choice 0) (abs s) o = .terminated
    | _ => False
  local_legal : ∀ {D σ σ' o}, Agree D σ σ' → (∀ z ∈ operands o, D z) → (legal σ o ↔ legal σ' o)
  local_step : ∀ {D σ σ' o} (m n), Agree D σ σ' → (∀ z ∈ operands o, D z) → RAgree D (step m n σ o) (step m n σ' o)
  frame_ret : ∀ {z σ σ' o m n out}, z ∉ changes o → step m n σ o = .ret out σ' → σ' z = σ z
  frame_threw : ∀ {z σ σ' o m n x}, z ∉ changes o → step m n σ o = .threw x σ' → σ' z = σ z
  fresh : ∀ {s}, Reach s → ∃ p, s.heap p = none

/-- What threads respect if each changes only its own objects and uses only those and shared ones. -/
theorem uses {L Op Th : Type} {operands changes : Op → List L} {owner : L → Option Th} {t : Th}
    {cs : List (Th × Op × Env)}
    (hown : ∀ c ∈ cs, ∀ z ∈ operands c.2.1, owner z = some c.1 ∨ owner z = none ∧ z ∉ changes c.2.1)
    (hsub : ∀ o z, z ∈ changes o → z ∈ operands o) :
    ∀ c ∈ cs, (c.1 = t → ∀ z ∈ operands c.2.1, Spec.Uses owner t z) ∧
      (c.1 ≠ t → ∀ z ∈ changes c.2.1, ¬ Spec.Uses owner t z) := by
  refine fun c hc => ⟨?_, ?_⟩
  · rintro rfl z hz
    exact (hown c hc z hz).imp id And.left
  · intro hne z hz hu
    rcases hown c hc z (hsub _ _ hz) with h | ⟨-, h⟩
    · rcases hu with hu | hu
      · rw [hu] at h; exact hne (Option.some.inj h).symm
      · rw [hu] at h; cases h
    · exact h hz

namespace Api
section
variable {L A R B V Op Th : Type} [DecidableEq L] [DecidableEq Th] (api : Api L A R B V Op)
variable {s s' u : St L A R B} {D : L → Prop} {t : Th}

def run : List (Op × Env) → St L A R B → Run (St L A R B) (Out L A V) := runWith fun c s => api.call c.1 c.2 s

def LegalRun : List (Op × Env) → St L A R B → Prop :=
  LegalWith (fun c s => api.call c.1 c.2 s) (fun s c => api.legal (api.abs s) c.1)

/-- One call of the thread, alone and among others. -/
theorem call_agree (h : api.Reach s) (h' : api.Reach u) (ha : Agree D (api.abs s) (api.abs u)) {o : Op}
    (ho : ∀ z ∈ api.operands o, D z) (hl : api.legal (api.abs s) o) {e e' : Env} (hm : available u e' = available s e)
    (hn : e'.choice 0 = e.choice 0) :
    api.legal (api.abs u) o ∧ match api.call o e s with
      | .ok out s' => ∃ u', api.call o e' u = .ok out u' ∧ Agree D (api.abs s') (api.abs u')
      | .threw x s' => ∃ u', api.call o e' u = .threw x u' ∧ Agree D (api.abs s') (api.abs u')
      | _ => True := by
  have hl' := (api.local_legal ha ho).1 hl
  refine ⟨hl', ?_⟩
  have h1 := api.refines e h hl
  have h2 := api.refines e' h' hl'
  have h3 := api.local_step (available s e) (e.choice 0) ha ho
  rw [hm, hn] at h2
  cases hc : api.call o e s with
  | ok out s' =>
    rw [hc] at h1; simp only at h1; rw [h1] at h3
    cases hc' : api.call o e' u with
    | ok out' u' => rw [hc'] at h2; simp only at h2; rw [h2] at h3; exact ⟨u', by rw [h3.1], h3.2⟩
    | threw x u' => rw [hc'] at h2; simp only at h2; rw [h2] at h3; exact h3.elim
    | terminated => rw [hc'] at h2; simp only at h2; rw [h2] at h3; exact h3.elim
    | ub w => rw [hc'] at h2; exact h2.elim
    | diverged => rw [hc'] at h2; exact h2.elim
  | threw x s' =>
    rw [hc] at h1; simp only at h1; rw [h1] at h3
    cases hc' : api.call o e' u with
    | ok out' u' => rw [hc'] at h2; simp only at h2; rw [h2] at h3; exact h3.elim
    | threw x u' => rw [hc'] at h2; simp only at h2; rw [h2] at h3; exact ⟨u', by rw [h3.1], h3.2⟩
    | terminated => rw [hc'] at h2; simp only at h2; rw [h2] at h3; exact h3.elim
    | ub w => rw [hc'] at h2; exact h2.elim
    | diverged => rw [hc'] at h2; exact h2.elim
  | terminated => trivial
  | ub w => trivial
  | diverged => trivial

/-- A call of another thread. -/
theorem call_other (h : api.Reach s) {o : Op} (ho : ∀ z ∈ api.changes o, ¬ D z) (hl : api.legal (api.abs s) o)
    {e : Env} (hc : (∃ out, api.call o e s = .ok out s') ∨ (∃ x, api.call o e s = .threw x s')) :
    Agree D (api.abs s') (api.abs s) := by
  have h1 := api.refines e h hl
  intro z hz
  rcases hc with ⟨out, hc⟩ | ⟨x, hc⟩
  · rw [hc] at h1; exact api.frame_ret (fun hm => ho z hm hz) h1
  · rw [hc] at h1; exact api.frame_threw (fun hm => ho z hm hz) h1

theorem Agree.trans' {σ σ' σ'' : Spec.Boxes L A V} (h : Agree D σ σ') (h' : Agree D σ' σ'') : Agree D σ σ'' :=
  fun z hz => (h z hz).trans (h' z hz)

theorem isolated {cs : List (Th × Op × Env)} {log : List (Seen (Out L A V))} (h : api.Reach s) (h' : api.Reach u)
    (ha : Agree D (api.abs s) (api.abs u)) (hl : api.LegalRun (cs.map (·.2)) s)
    (hr : api.run (cs.map (·.2)) s = .done log s')
    (hD : ∀ c ∈ cs, (c.1 = t → ∀ z ∈ api.operands c.2.1, D z) ∧
        (c.1 ≠ t → ∀ z ∈ api.changes c.2.1, ¬ D z)) {cs' : List (Op × Env)}
    (ho : cs'.map (·.1) = (callsOf t cs).map (·.1))
    (hk : lucksWith api.call cs' u = ofThread t cs (lucksWith api.call (cs.map (·.2)) s)) :
    api.LegalRun cs' u ∧ ∃ u', api.run cs' u = .done (ofThread t cs log) u' ∧ Agree D (api.abs s') (api.abs u') := by
  induction cs generalizing s u cs' log with
  | nil =>
    have : cs' = [] := by simpa [callsOf, ofThread] using ho
    subst this
    simp [run, runWith] at hr
    obtain ⟨rfl, rfl⟩ := hr
    exact ⟨trivial, u, rfl, ha⟩
  | cons c cs ih =>
    obtain ⟨i, o, e⟩ := c
    simp only [List.map_cons, run, runWith, LegalRun, LegalWith, lucksWith] at hl hr hk
    obtain ⟨h0, h1⟩ := hl
    have hD' : ∀ c ∈ cs, (c.1 = t → ∀ z ∈ api.operands c.2.1, D z) ∧
        (c.1 ≠ t → ∀ z ∈ api.changes c.2.1, ¬ D z) := fun c hc => hD c (by simp [hc])
    have hDo := hD (i, o, e) (by simp)
    simp only at hDo
    by_cases hi : i = t
    · subst hi
      have hoD := hDo.1 rfl
      simp only [callsOf, ofThread, List.map_cons, if_true] at ho hk
      cases cs' with
      | nil => simp at ho
      | cons c' cs' =>
        obtain ⟨o', e'⟩ := c'
        simp only [List.map_cons, List.cons.injEq] at ho
        obtain ⟨rfl, ho⟩ := ho
        simp only [lucksWith, List.cons.injEq, Spec.Luck.mk.injEq] at hk
        obtain ⟨⟨hm, hn⟩, hk⟩ := hk
        obtain ⟨hl', hc'⟩ := api.call_agree h h' ha hoD h0 hm hn
        cases hc : api.call o' e s with
        | ok out s₁ =>
          simp only [hc] at hr hc' hk h1
          obtain ⟨u₁, hu, ha₁⟩ := hc'
          cases hd : runWith (fun c s => api.call c.1 c.2 s) (cs.map (·.2)) s₁ with
          | done log' s₂ =>
            rw [hd] at hr
            simp [Run.cons] at hr
            obtain ⟨rfl, rfl⟩ := hr
            simp only [hu] at hk
            obtain ⟨h3, u', h4, h5⟩ := ih (api.ret h h0 hc) (api.ret h' hl' hu) ha₁ h1 hd hD' ho hk
            refine ⟨⟨hl', by simp only [hu]; exact h3⟩, u', ?_, h5⟩
            simp only [run] at h4
            simp only [run, runWith, hu, h4, ofThread, if_true, Run.cons]
          | _ => rw [hd] at hr; simp [Run.cons] at hr
        | threw x s₁ =>
          simp only [hc] at hr hc' hk h1
          obtain ⟨u₁, hu, ha₁⟩ := hc'
          cases hd : runWith (fun c s => api.call c.1 c.2 s) (cs.map (·.2)) s₁ with
          | done log' s₂ =>
            rw [hd] at hr
            simp [Run.cons] at hr
            obtain ⟨rfl, rfl⟩ := hr
            simp only [hu] at hk
            obtain ⟨h3, u', h4, h5⟩ := ih (api.threw h h0 hc) (api.threw h' hl' hu) ha₁ h1 hd hD' ho hk
            refine ⟨⟨hl', by simp only [hu]; exact h3⟩, u', ?_, h5⟩
            simp only [run] at h4
            simp only [run, runWith, hu, h4, ofThread, if_true, Run.cons]
          | _ => rw [hd] at hr; simp [Run.cons] at hr
        | terminated => simp [hc] at hr
        | ub w => simp [hc] at hr
        | diverged => simp [hc] at hr
    · have hoD := hDo.2 hi
      simp only [callsOf, ofThread, List.map_cons, if_neg hi] at ho hk
      cases hc : api.call o e s with
      | ok out s₁ =>
        simp only [hc] at hr hk h1
        cases hd : runWith (fun c s => api.call c.1 c.2 s) (cs.map (·.2)) s₁ with
        | done log' s₂ =>
          rw [hd] at hr
          simp [Run.cons] at hr
          obtain ⟨rfl, rfl⟩ := hr
          have := ih (api.ret h h0 hc) h' (Agree.trans' (api.call_other h hoD h0 (.inl ⟨_, hc⟩)) ha) h1 hd hD' ho hk
          simpa only [ofThread, if_neg hi] using this
        | _ => rw [hd] at hr; simp [Run.cons] at hr
      | threw x s₁ =>
        simp only [hc] at hr hk h1
        cases hd : runWith (fun c s => api.call c.1 c.2 s) (cs.map (·.2)) s₁ with
        | done log' s₂ =>
          rw [hd] at hr
          simp [Run.cons] at hr
          obtain ⟨rfl, rfl⟩ := hr
          have := ih (api.threw h h0 hc) h' (Agree.trans' (api.call_other h hoD h0 (.inr ⟨_, hc⟩)) ha) h1 hd hD' ho hk
          simpa only [ofThread, if_neg hi] using this
        | _ => rw [hd] at hr; simp [Run.cons] at hr
      | terminated => simp [hc] at hr
      | ub w => simp [hc] at hr
      | diverged => simp [hc] at hr

/-- An environment with given circumstances. -/
theorem env_for (h : api.Reach u) (m : Bool) (n : Nat) : ∃ e : Env, available u e = m ∧ e.choice 0 = n := by
  obtain ⟨p, hp⟩ := api.fresh h
  exact ⟨⟨fun _ => !m, fun _ => p, fun _ => n⟩, by simp [available, hp], rfl⟩

/-- The thread could have run alone under the same circumstances. -/
theorem solo_exists {cs : List (Th × Op × Env)} {log : List (Seen (Out L A V))} (h : api.Reach s) (h' : api.Reach u)
    (ha : Agree D (api.abs s) (api.abs u)) (hl : api.LegalRun (cs.map (·.2)) s)
    (hr : api.run (cs.map (·.2)) s = .done log s')
    (hD : ∀ c ∈ cs, (c.1 = t → ∀ z ∈ api.operands c.2.1, D z) ∧ (c.1 ≠ t → ∀ z ∈ api.changes c.2.1, ¬ D z)) :
    ∃ cs' : List (Op × Env), cs'.map (·.1) = (callsOf t cs).map (·.1) ∧
      lucksWith api.call cs' u = ofThread t cs (lucksWith api.call (cs.map (·.2)) s) := by
  induction cs generalizing s u log with
  | nil => exact ⟨[], rfl, rfl⟩
  | cons c cs ih =>
    obtain ⟨i, o, e⟩ := c
    simp only [List.map_cons, run, runWith, LegalRun, LegalWith, lucksWith] at hl hr
    obtain ⟨h0, h1⟩ := hl
    have hD' : ∀ c ∈ cs, (c.1 = t → ∀ z ∈ api.operands c.2.1, D z) ∧
        (c.1 ≠ t → ∀ z ∈ api.changes c.2.1, ¬ D z) := fun c hc => hD c (by simp [hc])
    have hDo := hD (i, o, e) (by simp)
    simp only at hDo
    have hdone : ∀ s₁, (∀ log', runWith (fun c s => api.call c.1 c.2 s) (cs.map (·.2)) s₁ ≠ .done log' s') →
        ∀ x, (runWith (fun c s => api.call c.1 c.2 s) (cs.map (·.2)) s₁).cons x ≠ .done log s' := by
      intro s₁ hn x hx
      cases hd : runWith (fun c s => api.call c.1 c.2 s) (cs.map (·.2)) s₁ <;> rw [hd] at hx hn <;>
        simp [Run.cons] at hx
      exact hn _ (by rw [hx.2])
    by_cases hi : i = t
    · subst hi
      have hoD := hDo.1 rfl
      obtain ⟨e', hm, hn⟩ := api.env_for h' (available s e) (e.choice 0)
      obtain ⟨hl', hc'⟩ := api.call_agree h h' ha hoD h0 hm hn
      cases hc : api.call o e s with
      | ok out s₁ =>
        simp only [hc] at hr hc' h1
        obtain ⟨u₁, hu, ha₁⟩ := hc'
        by_cases hd : ∃ log', runWith (fun c s => api.call c.1 c.2 s) (cs.map (·.2)) s₁ = .done log' s'
        · obtain ⟨log', hd⟩ := hd
          obtain ⟨cs', h3, h4⟩ := ih (api.ret h h0 hc) (api.ret h' hl' hu) ha₁ h1 hd hD'
          refine ⟨(o, e') :: cs', ?_, ?_⟩
          · simpa [callsOf, ofThread] using h3
          · simp only [lucksWith, List.map_cons, ofThread, if_true, hm, hn, hu, hc, h4]
        · exact absurd hr (hdone _ (fun log' h => hd ⟨log', h⟩) _)
      | threw x s₁ =>
        simp only [hc] at hr hc' h1
        obtain ⟨u₁, hu, ha₁⟩ := hc'
        by_cases hd : ∃ log', runWith (fun c s => api.call c.1 c.2 s) (cs.map (·.2)) s₁ = .done log' s'
        · obtain ⟨log', hd⟩ := hd
          obtain ⟨cs', h3, h4⟩ := ih (api.threw h h0 hc) (api.threw h' hl' hu) ha₁ h1 hd hD'
          refine ⟨(o, e') :: cs', ?_, ?_⟩
          · simpa [callsOf, ofThread] using h3
          · simp only [lucksWith, List.map_cons, ofThread, if_true, hm, hn, hu, hc, h4]
        · exact absurd hr (hdone _ (fun log' h => hd ⟨log', h⟩) _)
      | terminated => simp [hc] at hr
      | ub w => simp [hc] at hr
      | diverged => simp [hc] at hr
    · have hoD := hDo.2 hi
      cases hc : api.call o e s with
      | ok out s₁ =>
        simp only [hc] at hr h1
        by_cases hd : ∃ log', runWith (fun c s => api.call c.1 c.2 s) (cs.map (·.2)) s₁ = .done log' s'
        · obtain ⟨log', hd⟩ := hd
          obtain ⟨cs', h3, h4⟩ := ih (api.ret h h0 hc) h'
            (Agree.trans' (api.call_other h hoD h0 (.inl ⟨_, hc⟩)) ha) h1 hd hD'
          refine ⟨cs', ?_, ?_⟩
          · simpa [callsOf, ofThread, hi] using h3
          · simp only [lucksWith, List.map_cons, ofThread, if_neg hi, hc, h4]
        · exact absurd hr (hdone _ (fun log' h => hd ⟨log', h⟩) _)
      | threw x s₁ =>
        simp only [hc] at hr h1
        by_cases hd : ∃ log', runWith (fun c s => api.call c.1 c.2 s) (cs.map (·.2)) s₁ = .done log' s'
        · obtain ⟨log', hd⟩ := hd
          obtain ⟨cs', h3, h4⟩ := ih (api.threw h h0 hc) h'
            (Agree.trans' (api.call_other h hoD h0 (.inr ⟨_, hc⟩)) ha) h1 hd hD'
          refine ⟨cs', ?_, ?_⟩
          · simpa [callsOf, ofThread, hi] using h3
          · simp only [lucksWith, List.map_cons, ofThread, if_neg hi, hc, h4]
        · exact absurd hr (hdone _ (fun log' h => hd ⟨log', h⟩) _)
      | terminated => simp [hc] at hr
      | ub w => simp [hc] at hr
      | diverged => simp [hc] at hr

end
end Api
end Verif

/-! ## There is always an unused address -/

namespace Verif

/-- Every address above all that occur in allocations of `t` is unused. -/
theorem replay_unused {R : Type} [DecidableEq R] {t : List (Ev R)} {m : Spec.Mem R} (h : Spec.replay t = some m) :
    ∃ n : Nat, ∀ p : Nat, n ≤ p → m p = none := by
  have hb : ∃ n : Nat, ∀ (r : R) (p : Nat), Ev.alloc r p ∈ t → p < n := by
    clear h
    induction t with
    | nil => exact ⟨0, by simp⟩
    | cons ev t ih =>
      obtain ⟨n, hn⟩ := ih
      cases ev with
      | alloc r q =>
        refine ⟨max n (q + 1), ?_⟩
        intro r' p hp
        rcases List.mem_cons.1 hp with h | h
        · have hq : p = q := by cases h; rfl
          omega
        · have := hn _ _ h; omega
      | _ =>
        refine ⟨n, ?_⟩
        intro r' p hp
        rcases List.mem_cons.1 hp with h | h
        · cases h
        · exact hn _ _ h
  obtain ⟨n, hn⟩ := hb
  refine ⟨n, fun p hp => ?_⟩
  cases hm : m p with
  | none => rfl
  | some b =>
    obtain ⟨r, o⟩ := b
    obtain ⟨t₁, t₂, rfl, -⟩ := replay_held h hm
    have := hn r p (by simp)
    omega

theorem TraceOk.fresh {L A R B : Type} [DecidableEq R] [Body B] {s : St L A R B} (h : TraceOk s) :
    ∃ p, s.heap p = none := by
  obtain ⟨n, hn⟩ := replay_unused h
  have := hn n (Nat.le_refl _)
  exact ⟨n, by simpa [shape] using this⟩

end Verif
