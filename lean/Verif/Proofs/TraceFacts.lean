import Verif.Proofs.Keeps

/-! Consequences of the trace protocol. -/

set_option autoImplicit false
set_option linter.unusedSectionVars false
set_option linter.unusedSimpArgs false

namespace Verif

section
variable {R : Type} [DecidableEq R]

theorem replay_snoc_inv {t : List (Ev R)} {ev : Ev R} {m : Spec.Mem R} (h : Spec.replay (t ++ [ev]) = some m) :
    ∃ m', Spec.replay t = some m' ∧ Spec.obey m' ev = some m := by
  unfold Spec.replay at *
  rw [replayFrom_append] at h
  cases ht : Spec.replayFrom (fun _ => none) t with
  | none => simp [ht] at h
  | some m' =>
    refine ⟨m', rfl, ?_⟩
    simp only [ht, Option.bind_some, Spec.replayFrom] at h
    cases ho : Spec.obey m' ev with
    | none => simp [ho] at h
    | some m₁ => simpa [ho] using h

/-- A block that is held was allocated from its resource and not touched by the allocator since. -/
theorem replay_held {t : List (Ev R)} {m : Spec.Mem R} {p : Addr} {r : R} {b : Bool}
    (h : Spec.replay t = some m) (hp : m p = some ⟨r, b⟩) :
    ∃ t₁ t₂, t = t₁ ++ .alloc r p :: t₂ ∧ ∀ ev ∈ t₂, ¬ Spec.storageEvent p ev := by
  induction hn : t.length generalizing t m b with
  | zero =>
    have : t = [] := List.length_eq_zero_iff.1 hn
    subst this
    simp [Spec.replay, Spec.replayFrom] at h
    subst h; simp at hp
  | succ n ih =>
    have hne : t ≠ [] := by rintro rfl; simp at hn
    have hlast := (List.dropLast_concat_getLast hne).symm
    generalize t.getLast hne = ev at hlast
    generalize ht' : t.dropLast = u at hlast
    subst hlast
    have hu : u.length = n := by simpa using hn
    obtain ⟨m', h1, h2⟩ := replay_snoc_inv h
    have step : ∀ b', m' p = some ⟨r, b'⟩ → ¬ Spec.storageEvent p ev →
        ∃ t₁ t₂, u ++ [ev] = t₁ ++ .alloc r p :: t₂ ∧ ∀ ev ∈ t₂, ¬ Spec.storageEvent p ev := by
      intro b' hb hs
      obtain ⟨t₁, t₂, e, hno⟩ := ih h1 hb hu
      refine ⟨t₁, t₂ ++ [ev], by simp [e], ?_⟩
      intro ev' hev'
      rcases List.mem_append.1 hev' with h | h
      · exact hno _ h
      · simp at h; subst h; exact hs
    cases ev with
    | alloc r' q =>
      simp only [Spec.obey] at h2
      split at h2
      · simp at h2; subst h2
        by_cases e : p = q
        · subst e
          simp [Spec.setBlk] at hp
          obtain ⟨rfl, -⟩ := hp
          exact ⟨u, [], rfl, by simp⟩
        · simp only [Spec.setBlk, e, if_false] at hp
          exact step _ hp (fun h => e h.symm)
      · simp at h2
    | custom c k r' q =>
      simp only [Spec.obey] at h2
      simp at h2; subst h2
      exact step _ hp id
    | dealloc r' q =>
      simp only [Spec.obey] at h2
      split at h2
      · simp at h2; subst h2
        by_cases e : p = q
        · subst e; simp [Spec.setBlk] at hp
        · simp only [Spec.setBlk, e, if_false] at hp
          exact step _ hp (fun h => e h.symm)
      · simp at h2
    | construct q how =>
      simp only [Spec.obey] at h2
      split at h2
      · rename_i hq
        split at h2
        · simp at h2; subst h2
          by_cases e : p = q
          · subst e
            simp [Spec.setBlk] at hp
            obtain ⟨rfl, -⟩ := hp
            exact step _ hq (fun h => h)
          · simp only [Spec.setBlk, e, if_false] at hp
            exact step _ hp (fun h => h)
        · simp at h2
      · simp at h2
    | assign q how =>
      simp only [Spec.obey] at h2
      split at h2
      · simp at h2; subst h2; exact step _ hp (fun h => h)
      · simp at h2
    | destroy q =>
      simp only [Spec.obey] at h2
      split at h2
      · rename_i hq
        simp at h2; subst h2
        by_cases e : p = q
        · subst e
          simp [Spec.setBlk] at hp
          obtain ⟨rfl, -⟩ := hp
          exact step _ hq (fun h => h)
        · simp only [Spec.setBlk, e, if_false] at hp
          exact step _ hp (fun h => h)
      · simp at h2

/-- Every deallocation returns a block to the resource that its latest allocation took it from. -/
theorem replay_dealloc {t pre post : List (Ev R)} {m : Spec.Mem R} {p : Addr} {r : R}
    (h : Spec.replay t = some m) (ht : t = pre ++ .dealloc r p :: post) :
    ∃ t₁ t₂, pre = t₁ ++ .alloc r p :: t₂ ∧ ∀ ev ∈ t₂, ¬ Spec.storageEvent p ev := by
  subst ht
  have h' : Spec.replay ((pre ++ [.dealloc r p]) ++ post) = some m := by simpa using h
  unfold Spec.replay at h'
  rw [replayFrom_append] at h'
  cases hm : Spec.replayFrom (fun _ => none) (pre ++ [.dealloc r p]) with
  | none => simp [hm] at h'
  | some m₁ =>
    obtain ⟨m', h1, h2⟩ := replay_snoc_inv hm
    simp only [Spec.obey] at h2
    split at h2
    · rename_i hq; exact replay_held h1 hq
    · simp at h2

/-- The counts at a block. -/
theorem replay_counts {t : List (Ev R)} {m : Spec.Mem R} (h : Spec.replay t = some m) (p : Addr) :
    Spec.allocsAt p t = Spec.deallocsAt p t + (if (m p).isSome then 1 else 0) ∧
    Spec.constructsAt p t = Spec.destroysAt p t + (if Spec.liveAt m p then 1 else 0) := by
  have h1 := replayFrom_alloc_balance h p
  have h2 := replayFrom_construct_balance h p
  simp [Spec.liveAt] at h1 h2
  exact ⟨h1, h2⟩

end
end Verif
