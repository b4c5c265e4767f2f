import Verif.Spec.Block
import Verif.Proofs.Client
import Verif.Proofs.CompositeLaws
import Verif.Proofs.Fine14

/-!
Programs with local variables.
-/

set_option autoImplicit false
set_option linter.unusedSectionVars false
set_option linter.unusedSimpArgs false

namespace Verif.Spec
open Verif

/-! ## Clients one after the other -/

section
variable {L A V N C α β : Type} {step : Bool → N → Boxes L A V → C → Result L A V} {legal : Boxes L A V → C → Prop}

theorem careful_left {f : α → Client C (Out L A V) β} (p : Client C (Out L A V) α) : ∀ {σ : Boxes L A V},
    Careful step legal (p.bind f) σ → Careful step legal p σ := by
  induction p with
  | ret a => exact fun _ => trivial
  | call c k ih =>
    intro σ h
    refine ⟨h.1, fun m n => ?_⟩
    have := h.2 m n
    cases hs : step m n σ c <;> rw [hs] at this <;> simp only at this ⊢
    · exact ih _ this
    · exact ih _ this

theorem careful_right {f : α → Client C (Out L A V) β} (p : Client C (Out L A V) α) : ∀ {σ σ' : Boxes L A V} {a : α}
    {luck : Nat → Bool × N}, Careful step legal (p.bind f) σ → runOn step p luck σ = .done a σ' → Careful step legal (f a) σ' := by
  induction p with
  | ret a => intro σ σ' b luck h hr; cases hr; exact h
  | call c k ih =>
    intro σ σ' b luck h hr
    have := h.2 (luck 0).1 (luck 0).2
    simp only [runOn] at hr
    cases hs : step (luck 0).1 (luck 0).2 σ c <;> rw [hs] at this hr <;> simp only at this hr
    · exact ih _ this hr
    · exact ih _ this hr
    · cases hr

theorem careful_bind [Inhabited N] {f : α → Client C (Out L A V) β} (p : Client C (Out L A V) α) : ∀ {σ : Boxes L A V},
    Careful step legal p σ → (∀ luck a σ', runOn step p luck σ = .done a σ' → Careful step legal (f a) σ') →
    Careful step legal (p.bind f) σ := by
  induction p with
  | ret a => exact fun _ h => h (fun _ => (true, default)) _ _ rfl
  | call c k ih =>
    intro σ h hf
    refine ⟨h.1, fun m n => ?_⟩
    have h2 := h.2 m n
    have h3 : ∀ (luck : Nat → Bool × N) a σ', runOn step (.call c k) (fun | 0 => (m, n) | i + 1 => luck i) σ = .done a σ' →
        Careful step legal (f a) σ' := fun luck a σ' => hf _ a σ'
    simp only [runOn] at h3
    cases hs : step m n σ c <;> rw [hs] at h2 h3 <;> simp only at h2 h3 ⊢
    · exact ih _ h2 h3
    · exact ih _ h2 h3

theorem runOn_bind {f : α → Client C (Out L A V) β} (p : Client C (Out L A V) α) : ∀ {luck : Nat → Bool × N} {σ : Boxes L A V}
    {E : End L A V β}, runOn step (p.bind f) luck σ = E →
    (∃ a σ' luck', runOn step p luck σ = .done a σ' ∧ runOn step (f a) luck' σ' = E) ∨
    (runOn step p luck σ = .terminated ∧ E = .terminated) ∨ (runOn step p luck σ = .illegal ∧ E = .illegal) := by
  induction p with
  | ret a => exact fun h => .inl ⟨a, _, _, rfl, h⟩
  | call c k ih =>
    intro luck σ E h
    simp only [Client.bind, runOn] at h ⊢
    cases hs : step (luck 0).1 (luck 0).2 σ c <;> rw [hs] at h <;> simp only at h ⊢
    · exact ih _ h
    · exact ih _ h
    · exact .inr (.inl ⟨trivial, h.symm⟩)
    · exact .inr (.inr ⟨trivial, h.symm⟩)

end

/-! ## Lifetimes -/

section
variable {L A R V X Ty Q : Type} [DecidableEq L]

/-- After the call, object `z` is alive exactly if … -/
def aliveAfter (l : Life L) (z : L) (b : Bool) : Bool :=
  match l with
  | .begins x => decide (z = x) || b
  | .ends x => !decide (z = x) && b
  | .neither => b

/-- Lifetimes after a call. -/
def LivesOn (l : Life L) (σ : Boxes L A V) : Result L A V → Prop
  | .ret _ σ' => ∀ z, (σ' z).isSome = aliveAfter l z (σ z).isSome
  | .threw _ σ' => ∀ z, (σ' z).isSome = (σ z).isSome
  | .terminated => True
  | .illegal => False

/-- After a call no object that is not in `M` is valueless. -/
def FullAfter (M : L → Prop) : Result L A V → Prop
  | .ret _ σ => Full M σ
  | .threw _ σ => Full M σ
  | .terminated => True
  | .illegal => True

variable {σ : Boxes L A V} {M : L → Prop}

theorem isSome_put (x : L) (b : Box A V) (z : L) : (put σ x b z).isSome = (decide (z = x) || (σ z).isSome) := by
  unfold put; split <;> simp_all

theorem isSome_put_live {x : L} {c : Box A V} (h : σ x = some c) (b : Box A V) (z : L) : (put σ x b z).isSome = (σ z).isSome := by
  unfold put; split <;> simp_all

theorem isSome_setVal (x : L) (v : Option V) (z : L) : (setVal σ x v z).isSome = (σ z).isSome := by
  unfold setVal; split <;> simp_all

theorem isSome_drop (x : L) (z : L) : (drop σ x z).isSome = (!decide (z = x) && (σ z).isSome) := by
  unfold drop; split <;> simp_all

theorem Full.put (h : Full M σ) {x : L} {b : Box A V} (hb : ¬ M x → b.val ≠ none) : Full M (put σ x b) := by
  intro z c hc hz
  unfold Spec.put at hc
  split at hc
  · rename_i hzx; cases hc; exact hb (hzx ▸ hz)
  · exact h z c hc hz

theorem Full.setVal (h : Full M σ) (x : L) (v : V) : Full M (setVal σ x (some v)) := by
  intro z c hc hz
  unfold Spec.setVal at hc
  split at hc
  · cases hx : σ x with
    | none => rw [hx] at hc; cases hc
    | some b => rw [hx] at hc; cases hc; simp
  · exact h z c hc hz

theorem Full.drop (h : Full M σ) (x : L) : Full M (drop σ x) := by
  intro z c hc hz
  unfold Spec.drop at hc
  split at hc
  · cases hc
  · exact h z c hc hz

theorem buildFrom_isSome (T : TSpec V X) (m : Bool) (n : Nat) (u : Src L X) (z : L) :
    ((buildFrom T m n σ u).2 z).isSome = (σ z).isSome := by
  cases u <;> simp only [buildFrom]
  · split <;> rfl
  · split
    · split
      · exact isSome_setVal _ _ _
      · rfl
    · rfl

theorem buildFrom_full (T : TSpec V X) (m : Bool) (n : Nat) (u : Src L X) (h : Full M σ) : Full M (buildFrom T m n σ u).2 := by
  cases u <;> simp only [buildFrom]
  · exact h
  · split <;> exact h
  · split
    · split
      · exact h.setVal _ _
      · exact h
    · exact h

theorem store_lives {σ' : Boxes L A V} {o : Out L A V} {x : L} {a : A} {l : Life L} (r : Except Exn V)
    (h : ∀ z, (σ' z).isSome = (σ z).isSome)
    (hl : l = .begins x ∨ l = .neither ∧ (σ x).isSome = true) : LivesOn l σ (store σ' o x a r) := by
  cases r with
  | error e => exact h
  | ok v =>
    intro z
    rw [isSome_put, h z]
    rcases hl with rfl | ⟨rfl, hx⟩
    · rfl
    · by_cases hz : z = x
      · subst hz; simp [aliveAfter, hx]
      · simp [aliveAfter, hz]

theorem store_full {o : Out L A V} {x : L} {a : A} (r : Except Exn V) (h : Full M σ) : FullAfter M (store σ o x a r) := by
  cases r with
  | error e => exact h
  | ok v => exact h.put fun _ => by simp

theorem noexceptIf_lives {l : Life L} {r : Result L A V} (b : Bool) (h : LivesOn l σ r) : LivesOn l σ (noexceptIf b r) := by
  cases r with
  | threw e σ' =>
    simp only [noexceptIf]
    split
    · trivial
    · exact h
  | _ => exact h

theorem noexceptIf_full {r : Result L A V} (b : Bool) (h : FullAfter M r) : FullAfter M (noexceptIf b r) := by
  cases r with
  | threw e σ' =>
    simp only [noexceptIf]
    split
    · trivial
    · exact h
  | _ => exact h

section
variable (tr : ATraits A R) (T : TSpec V X) (m : Bool) (n : Nat)

theorem copyA_lives {x y : L} (a : A) (hy : Live σ y) : LivesOn (.begins x) σ (copyA T m n σ x a y) := by
  obtain ⟨b, hb⟩ := hy
  simp only [copyA, hb]
  split
  · exact fun z => isSome_put _ _ _
  · exact store_lives _ (fun _ => rfl) (.inl rfl)

theorem copyA_full {x y : L} (a : A) (h : Full M σ) (hM : M y → M x) : FullAfter M (copyA T m n σ x a y) := by
  simp only [copyA]
  split
  · trivial
  · rename_i b hb
    split
    · rename_i hn
      exact h.put fun hx => absurd hn (h y b hb fun hy => hx (hM hy))
    · exact store_full _ h

theorem moveA_lives {x y : L} (a : A) (hy : Live σ y) : LivesOn (.begins x) σ (moveA tr T m n σ x a y) := by
  obtain ⟨b, hb⟩ := hy
  simp only [moveA, hb]
  split
  · intro z; rw [isSome_put, isSome_put_live hb]; rfl
  · split
    · exact fun z => isSome_put _ _ _
    · split
      · exact store_lives _ (isSome_setVal _ _) (.inl rfl)
      · exact fun _ => rfl

theorem moveA_full {x y : L} (a : A) (h : Full M σ) (hx : M x) (hy : M y) : FullAfter M (moveA tr T m n σ x a y) := by
  simp only [moveA]
  split
  · trivial
  · split
    · exact (h.put fun hn => absurd hy hn).put fun hn => absurd hx hn
    · split
      · exact h.put fun hn => absurd hx hn
      · split
        · exact store_full _ (h.setVal _ _)
        · exact h

theorem live_cases {x : L} (h : Live σ x) : (σ x).isSome = true := by obtain ⟨b, hb⟩ := h; rw [hb]; rfl

theorem assignCopy_lives {x y : L} (hx : Live σ x) (hy : Live σ y) : LivesOn .neither σ (assignCopy tr T m n σ x y) := by
  have hx' := live_cases hx
  obtain ⟨b, hb⟩ := hx
  obtain ⟨c, hc⟩ := hy
  simp only [assignCopy]
  split
  · exact fun _ => rfl
  · simp only [hb, hc]
    split
    · exact isSome_put_live hb _
    · split
      · split <;> exact isSome_put_live hb _
      · exact store_lives _ (fun _ => rfl) (.inr ⟨rfl, hx'⟩)
    · exact store_lives _ (fun _ => rfl) (.inr ⟨rfl, hx'⟩)

theorem assignCopy_full {x y : L} (h : Full M σ) (hM : M y → M x) : FullAfter M (assignCopy tr T m n σ x y) := by
  simp only [assignCopy]
  split
  · exact h
  · split
    · rename_i b c hb hc
      split
      · rename_i hn
        exact h.put fun hx => absurd hn (h y c hc fun hy => hx (hM hy))
      · split
        · split <;> exact h.put fun _ => by simp
        · exact store_full _ h
      · exact store_full _ h
    · trivial

theorem assignMove_lives {x y : L} (hx : Live σ x) (hy : Live σ y) : LivesOn .neither σ (assignMove tr T m n σ x y) := by
  have hx' := live_cases hx
  obtain ⟨b, hb⟩ := hx
  obtain ⟨c, hc⟩ := hy
  simp only [assignMove]
  split
  · exact fun _ => rfl
  · rename_i hxy
    simp only [hb, hc]
    split
    · exact isSome_put_live hb _
    · split
      · intro z
        rw [isSome_put_live (c := b) (by simp [put, hxy, hb]), isSome_put_live hc]; rfl
      · split
        · exact noexceptIf_lives _ (store_lives _ (isSome_setVal _ _) (.inr ⟨rfl, hx'⟩))
        · exact noexceptIf_lives _ fun _ => rfl

theorem assignMove_full {x y : L} (h : Full M σ) (hx : M x) (hy : M y) : FullAfter M (assignMove tr T m n σ x y) := by
  simp only [assignMove]
  split
  · exact h
  · split
    · split
      · exact h.put fun hn => absurd hx hn
      · split
        · exact (h.put fun hn => absurd hy hn).put fun hn => absurd hx hn
        · split
          · exact noexceptIf_full _ (store_full _ (h.setVal _ _))
          · exact noexceptIf_full _ h
    · trivial

theorem assignValue_lives {x : L} {d : V} {u : Src L X} (hu : LegalSrc σ u) : LivesOn .neither σ (assignValue T n σ x d u) := by
  cases u <;> simp only [assignValue]
  · split <;> exact isSome_setVal _ _
  · obtain ⟨v, hv⟩ := hu
    simp only [hv]
    split <;> exact isSome_setVal _ _
  · obtain ⟨v, hv⟩ := hu
    simp only [hv]
    split <;> exact fun z => (isSome_setVal _ _ _).trans (isSome_setVal _ _ _)

theorem assignValue_full {x : L} {d : V} {u : Src L X} (h : Full M σ) : FullAfter M (assignValue T n σ x d u) := by
  cases u <;> simp only [assignValue]
  · split <;> exact h.setVal _ _
  · split
    · trivial
    · split <;> exact h.setVal _ _
  · split
    · trivial
    · split <;> exact (h.setVal _ _).setVal _ _

theorem assignFrom_lives {x : L} {u : Src L X} (hx : Live σ x) (hu : LegalSrc σ u) :
    LivesOn .neither σ (assignFrom T m n σ x u) := by
  have hx' := live_cases hx
  obtain ⟨b, hb⟩ := hx
  simp only [assignFrom, hb]
  split
  · exact store_lives _ (buildFrom_isSome _ _ _ _) (.inr ⟨rfl, hx'⟩)
  · exact assignValue_lives _ _ hu

theorem assignFrom_full {x : L} {u : Src L X} (h : Full M σ) : FullAfter M (assignFrom T m n σ x u) := by
  simp only [assignFrom]
  split
  · trivial
  · split
    · exact store_full _ (buildFrom_full _ _ _ _ h)
    · exact assignValue_full _ _ h

theorem swap_lives {x y : L} (h : LegalSwap tr σ x y) : LivesOn .neither σ (swap tr σ x y) := by
  obtain ⟨b, c, hb, hc, -⟩ := h
  simp only [swap, hb, hc]
  have : ∀ d, ∃ c', put σ x d y = some c' := by
    intro d; unfold put; split
    · exact ⟨_, rfl⟩
    · exact ⟨_, hc⟩
  split <;> intro z
  · obtain ⟨c', hc'⟩ := this c
    rw [isSome_put_live hc', isSome_put_live hb]; rfl
  · obtain ⟨c', hc'⟩ := this ⟨b.alloc, c.val⟩
    rw [isSome_put_live hc', isSome_put_live hb]; rfl

theorem swap_full {x y : L} (h : Full M σ) (hM : M x ↔ M y) : FullAfter M (swap tr σ x y) := by
  simp only [swap]
  split
  · rename_i b c hb hc
    have h1 : ¬ M x → c.val ≠ none := fun hx => h y c hc fun hy => hx (hM.2 hy)
    have h2 : ¬ M y → b.val ≠ none := fun hy => h x b hb fun hx => hy (hM.1 hx)
    split
    · exact (h.put h1).put h2
    · exact (h.put (b := ⟨b.alloc, c.val⟩) h1).put (b := ⟨c.alloc, b.val⟩) h2
  · trivial

theorem step_lives {o : Op L A V X} (h : Legal tr σ o) : LivesOn (life o) σ (step tr T m n σ o) := by
  cases o with
  | make x a c =>
    refine store_lives _ ?_ (.inl rfl)
    cases c <;> first | exact fun _ => rfl | exact buildFrom_isSome _ _ _ _
  | copy x y =>
    obtain ⟨b, hb⟩ := h.2
    simp only [step, hb]
    exact copyA_lives _ _ _ _ ⟨b, hb⟩
  | copyA x a y => exact copyA_lives _ _ _ _ h.2
  | move x y =>
    obtain ⟨b, hb⟩ := h.2
    simp only [step, hb]
    exact noexceptIf_lives _ (moveA_lives _ _ _ _ _ ⟨b, hb⟩)
  | moveA x a y => exact noexceptIf_lives _ (moveA_lives _ _ _ _ _ h.2)
  | destroy x => exact isSome_drop x
  | assignCopy x y => exact assignCopy_lives _ _ _ _ h.1 h.2
  | assignMove x y => exact assignMove_lives _ _ _ _ h.1 h.2
  | assignFrom x u => exact assignFrom_lives _ _ _ h.1 h.2
  | deref x => obtain ⟨v, hv⟩ := h; simp only [step, hv]; exact fun _ => rfl
  | arrow x => obtain ⟨v, hv⟩ := h; simp only [step, hv]; exact fun _ => rfl
  | modify x f => obtain ⟨v, hv⟩ := h; simp only [step, hv]; exact isSome_setVal _ _
  | valueless x => obtain ⟨v, hv⟩ := h; simp only [step, hv]; exact fun _ => rfl
  | getAllocator x => obtain ⟨v, hv⟩ := h; simp only [step, hv]; exact fun _ => rfl
  | swap x y => exact swap_lives _ h
  | friendSwap x y => exact swap_lives _ h

theorem step_full {o : Op L A V X} (h : Full M σ) (hM : Respects M o) : FullAfter M (step tr T m n σ o) := by
  cases o with
  | make x a c =>
    refine store_full _ ?_
    cases c <;> first | exact h | exact buildFrom_full _ _ _ _ h
  | copy x y =>
    simp only [step]
    split
    · trivial
    · exact copyA_full _ _ _ _ h hM
  | copyA x a y => exact copyA_full _ _ _ _ h hM
  | move x y =>
    simp only [step]
    split
    · trivial
    · exact noexceptIf_full _ (moveA_full _ _ _ _ _ h hM.1 hM.2)
  | moveA x a y => exact noexceptIf_full _ (moveA_full _ _ _ _ _ h hM.1 hM.2)
  | destroy x => exact h.drop x
  | assignCopy x y => exact assignCopy_full _ _ _ _ h hM
  | assignMove x y => exact assignMove_full _ _ _ _ h hM.1 hM.2
  | assignFrom x u => exact assignFrom_full _ _ _ h
  | deref x => simp only [step]; split; exact h; trivial
  | arrow x => simp only [step]; split; exact h; trivial
  | modify x f => simp only [step]; split; exact h.setVal _ _; trivial
  | valueless x => simp only [step]; split; exact h; trivial
  | getAllocator x => simp only [step]; split; exact h; trivial
  | swap x y => exact swap_full _ h hM
  | friendSwap x y => exact swap_full _ h hM

/-- The arguments that have to be alive are, and what begins a lifetime has a new name. -/
def Ready (l : Life L) (us : List L) (σ : Boxes L A V) : Prop :=
  (∀ z ∈ us, (σ z).isSome = true) ∧ (∀ x, l = .begins x → σ x = none) ∧ (∀ x, l = .ends x → (σ x).isSome = true)

theorem live_of {x : L} (h : (σ x).isSome = true) : Live σ x := Option.isSome_iff_exists.1 h

theorem Full.engaged (h : Full M σ) {x : L} (hx : (σ x).isSome = true) (hM : ¬ M x) : Engaged σ x := by
  obtain ⟨b, hb⟩ := live_of hx
  cases hv : b.val with
  | none => exact absurd hv (h x b hb hM)
  | some v => exact ⟨v, by simp [valueOf, hb, hv]⟩

theorem live_congr {σ' : Boxes L A V} {z : L} (h : (σ' z).isSome = (σ z).isSome) : Live σ' z ↔ Live σ z := by
  rw [Live, Live, ← Option.isSome_iff_exists, ← Option.isSome_iff_exists, h]

theorem legal_src {u : Src L X} (h : Full M σ) (hu : ∀ z ∈ srcOperands u, (σ z).isSome = true) (hM : RespectsSrc M u) :
    LegalSrc σ u := by
  cases u with
  | arg x => trivial
  | lval y => exact h.engaged (hu y (by simp [srcOperands])) hM
  | rval y => exact h.engaged (hu y (by simp [srcOperands])) hM

theorem legal_swap (hA : ∀ a b, tr.eq a b = true) {x y : L} (hx : (σ x).isSome = true) (hy : (σ y).isSome = true) :
    LegalSwap tr σ x y := by
  obtain ⟨b, hb⟩ := live_of hx
  obtain ⟨c, hc⟩ := live_of hy
  exact ⟨b, c, hb, hc, .inr (hA _ _)⟩

theorem legal_of {o : Op L A V X} (hA : ∀ a b, tr.eq a b = true) (h : Full M σ) (hr : Ready (life o) (uses o) σ)
    (hM : Respects M o) : Legal tr σ o := by
  obtain ⟨hu, hb, he⟩ := hr
  cases o with
  | make x a c =>
    refine ⟨hb x rfl, ?_⟩
    cases c <;> first | trivial | exact legal_src h hu hM
  | copy x y => exact ⟨hb x rfl, live_of (hu y (by simp [uses]))⟩
  | copyA x a y => exact ⟨hb x rfl, live_of (hu y (by simp [uses]))⟩
  | move x y => exact ⟨hb x rfl, live_of (hu y (by simp [uses]))⟩
  | moveA x a y => exact ⟨hb x rfl, live_of (hu y (by simp [uses]))⟩
  | destroy x => exact live_of (he x rfl)
  | assignCopy x y => exact ⟨live_of (hu x (by simp [uses, operands])), live_of (hu y (by simp [uses, operands]))⟩
  | assignMove x y => exact ⟨live_of (hu x (by simp [uses, operands])), live_of (hu y (by simp [uses, operands]))⟩
  | assignFrom x u =>
    exact ⟨live_of (hu x (by simp [uses, operands])), legal_src h (fun z hz => hu z (by simp [uses, operands, hz])) hM⟩
  | deref x => exact h.engaged (hu x (by simp [uses, operands])) hM
  | arrow x => exact h.engaged (hu x (by simp [uses, operands])) hM
  | modify x f => exact h.engaged (hu x (by simp [uses, operands])) hM
  | valueless x => exact live_of (hu x (by simp [uses, operands]))
  | getAllocator x => exact live_of (hu x (by simp [uses, operands]))
  | swap x y => exact legal_swap tr hA (hu x (by simp [uses, operands])) (hu y (by simp [uses, operands]))
  | friendSwap x y => exact legal_swap tr hA (hu x (by simp [uses, operands])) (hu y (by simp [uses, operands]))

theorem store_returns {σ : Boxes L A V} {o : Out L A V} {x : L} {a : A} (r : Except Exn V) : store σ o x a r ≠ .terminated := by
  cases r <;> simp [store]

theorem step_returns (hA : ∀ a b, tr.eq a b = true) (o : Op L A V X) : step tr T m n σ o ≠ .terminated := by
  have hcopy : ∀ x a y, copyA T m n σ x a y ≠ .terminated := by
    intro x a y
    simp only [copyA]
    split
    · simp
    · split
      · simp
      · exact store_returns _
  have hmove : ∀ b x a y, noexceptIf b (moveA tr T m n σ x a y) ≠ .terminated := by
    intro b x a y
    simp only [moveA]
    split
    · simp [noexceptIf]
    · simp [hA, noexceptIf]
  cases o <;> simp only [step]
  case make => exact store_returns _
  case copy => split <;> simp [hcopy]
  case copyA => exact hcopy _ _ _
  case move => split <;> simp [hmove]
  case moveA => exact hmove _ _ _ _
  case destroy => simp
  case assignCopy x y =>
    simp only [assignCopy]
    split
    · simp
    · split
      · split
        · simp
        · split
          · split <;> simp
          · exact store_returns _
        · exact store_returns _
      · simp
  case assignMove x y =>
    simp only [assignMove]
    split
    · simp
    · split
      · split
        · simp
        · simp [hA]
      · simp
  case assignFrom x u =>
    simp only [assignFrom]
    split
    · simp
    · split
      · exact store_returns _
      · cases u <;> simp only [assignValue]
        · split <;> simp
        · split
          · simp
          · split <;> simp
        · split
          · simp
          · split <;> simp
  case deref => split <;> simp
  case arrow => split <;> simp
  case modify => split <;> simp
  case valueless => split <;> simp
  case getAllocator => split <;> simp
  case swap => simp only [swap]; split; split; all_goals simp
  case friendSwap => simp only [swap]; split; split; all_goals simp

end
end

/-! ## `polymorphic` -/

section
variable {L A R V X Ty : Type} [DecidableEq L] {σ : Boxes L A (Ty × V)} {M : L → Prop}
variable (tr : ATraits A R) (P : PSpec Ty V X) (m : Bool) (n : Nat)

theorem pbuild_isSome (c : PCtor L Ty X) (z : L) : ((pbuildCtor P m n σ c).2 z).isSome = (σ z).isSome := by
  cases c with
  | «from» ty u => cases u <;> first | rfl | exact buildFrom_isSome _ _ _ _ _
  | _ => rfl

theorem pbuild_full (c : PCtor L Ty X) (h : Full M σ) : Full M (pbuildCtor P m n σ c).2 := by
  cases c with
  | «from» ty u => cases u <;> first | exact h | exact buildFrom_full _ _ _ _ h
  | _ => exact h

theorem pstep_lives {o : POp L A Ty V X} (h : PLegal tr σ o) : LivesOn (plife o) σ (pstep tr P m n σ o) := by
  cases o with
  | make x a c => exact store_lives _ (pbuild_isSome _ _ _ _) (.inl rfl)
  | copy x y =>
    obtain ⟨b, hb⟩ := h.2
    simp only [pstep, hb]
    exact copyA_lives _ _ _ _ ⟨b, hb⟩
  | copyA x a y => exact copyA_lives _ _ _ _ h.2
  | move x y =>
    obtain ⟨b, hb⟩ := h.2
    simp only [pstep, hb]
    exact noexceptIf_lives _ (moveA_lives _ _ _ _ _ ⟨b, hb⟩)
  | moveA x a y => exact noexceptIf_lives _ (moveA_lives _ _ _ _ _ h.2)
  | destroy x => exact isSome_drop x
  | assignCopy x y => exact assignCopy_lives _ _ _ _ h.1 h.2
  | assignMove x y => exact assignMove_lives _ _ _ _ h.1 h.2
  | deref x => obtain ⟨v, hv⟩ := h; simp only [pstep, hv]; exact fun _ => rfl
  | arrow x => obtain ⟨v, hv⟩ := h; simp only [pstep, hv]; exact fun _ => rfl
  | modify x f => obtain ⟨v, hv⟩ := h; simp only [pstep, hv]; exact isSome_setVal _ _
  | valueless x => obtain ⟨v, hv⟩ := h; simp only [pstep, hv]; exact fun _ => rfl
  | getAllocator x => obtain ⟨v, hv⟩ := h; simp only [pstep, hv]; exact fun _ => rfl
  | swap x y => exact swap_lives _ h
  | friendSwap x y => exact swap_lives _ h

theorem pstep_full {o : POp L A Ty V X} (h : Full M σ) (hM : PRespects M o) : FullAfter M (pstep tr P m n σ o) := by
  cases o with
  | make x a c => exact store_full _ (pbuild_full _ _ _ _ h)
  | copy x y =>
    simp only [pstep]
    split
    · trivial
    · exact copyA_full _ _ _ _ h hM
  | copyA x a y => exact copyA_full _ _ _ _ h hM
  | move x y =>
    simp only [pstep]
    split
    · trivial
    · exact noexceptIf_full _ (moveA_full _ _ _ _ _ h hM.1 hM.2)
  | moveA x a y => exact noexceptIf_full _ (moveA_full _ _ _ _ _ h hM.1 hM.2)
  | destroy x => exact h.drop x
  | assignCopy x y => exact assignCopy_full _ _ _ _ h hM
  | assignMove x y => exact assignMove_full _ _ _ _ h hM.1 hM.2
  | deref x => simp only [pstep]; split; exact h; trivial
  | arrow x => simp only [pstep]; split; exact h; trivial
  | modify x f => simp only [pstep]; split; exact h.setVal _ _; trivial
  | valueless x => simp only [pstep]; split; exact h; trivial
  | getAllocator x => simp only [pstep]; split; exact h; trivial
  | swap x y => exact swap_full _ h hM
  | friendSwap x y => exact swap_full _ h hM

theorem plegal_of {o : POp L A Ty V X} (hA : ∀ a b, tr.eq a b = true) (h : Full M σ) (hr : Ready (plife o) (puses o) σ)
    (hM : PRespects M o) : PLegal tr σ o := by
  obtain ⟨hu, hb, he⟩ := hr
  cases o with
  | make x a c =>
    refine ⟨hb x rfl, ?_⟩
    cases c with
    | «from» ty u => cases u <;> first | trivial | (simp [PRespects, srcOperands] at hM)
    | _ => trivial
  | copy x y => exact ⟨hb x rfl, live_of (hu y (by simp [puses]))⟩
  | copyA x a y => exact ⟨hb x rfl, live_of (hu y (by simp [puses]))⟩
  | move x y => exact ⟨hb x rfl, live_of (hu y (by simp [puses]))⟩
  | moveA x a y => exact ⟨hb x rfl, live_of (hu y (by simp [puses]))⟩
  | destroy x => exact live_of (he x rfl)
  | assignCopy x y => exact ⟨live_of (hu x (by simp [puses, poperands])), live_of (hu y (by simp [puses, poperands]))⟩
  | assignMove x y => exact ⟨live_of (hu x (by simp [puses, poperands])), live_of (hu y (by simp [puses, poperands]))⟩
  | deref x => exact h.engaged (hu x (by simp [puses, poperands])) hM
  | arrow x => exact h.engaged (hu x (by simp [puses, poperands])) hM
  | modify x f => exact h.engaged (hu x (by simp [puses, poperands])) hM
  | valueless x => exact live_of (hu x (by simp [puses, poperands]))
  | getAllocator x => exact live_of (hu x (by simp [puses, poperands]))
  | swap x y => exact legal_swap tr hA (hu x (by simp [puses, poperands])) (hu y (by simp [puses, poperands]))
  | friendSwap x y => exact legal_swap tr hA (hu x (by simp [puses, poperands])) (hu y (by simp [puses, poperands]))

theorem pstep_returns (hA : ∀ a b, tr.eq a b = true) (o : POp L A Ty V X) : pstep tr P m n σ o ≠ .terminated := by
  have R : ∀ o, step tr P.owned m n σ o ≠ .terminated := step_returns tr P.owned m n hA
  cases o with
  | make x a c => exact store_returns _
  | copy x y =>
    have := R (.copy x y)
    simp only [step] at this; simp only [pstep]; split <;> simp_all
  | copyA x a y => exact R (.copyA x a y)
  | move x y =>
    have := R (.move x y)
    simp only [step] at this; simp only [pstep]; split <;> simp_all
  | moveA x a y => exact R (.moveA x a y)
  | destroy x => exact R (.destroy x)
  | assignCopy x y => exact R (.assignCopy x y)
  | assignMove x y => exact R (.assignMove x y)
  | deref x => simp only [pstep]; split <;> simp
  | arrow x => simp only [pstep]; split <;> simp
  | modify x f => simp only [pstep]; split <;> simp
  | valueless x => simp only [pstep]; split <;> simp
  | getAllocator x => simp only [pstep]; split <;> simp
  | swap x y => exact R (.swap x y)
  | friendSwap x y => exact R (.friendSwap x y)

/-- The call of polymorphic.h that a call of polymorphic_cxx14.h is like. -/
theorem pstep14_like (o : POp L A Ty V X) : ∃ o' : POp L A Ty V X, pstep14 tr P m n σ o = pstep tr P m n σ o' ∧ plife o' = plife o ∧
    (PLegal tr σ o → PLegal tr σ o') ∧ (PRespects M o → PRespects M o') := by
  cases o with
  | make x a c =>
    cases c with
    | ilist ty l us => exact ⟨.make x a (.ilist P.base l us), rfl, rfl, id, id⟩
    | _ => exact ⟨_, rfl, rfl, id, id⟩
  | _ => exact ⟨_, rfl, rfl, id, id⟩

end

/-! ## Comparisons and hashes -/

section
variable {L A R V X : Type} [DecidableEq L] {σ : Boxes L A V} {M : L → Prop} (C : TCmp V) (f : Nat → Nat)

theorem answer_lives {α : Type} (out : α → Out L A V) (r : Except Exn α) : LivesOn .neither σ (answer σ out r) := by
  cases r <;> exact fun _ => rfl

theorem answer_full {α : Type} (h : Full M σ) (out : α → Out L A V) (r : Except Exn α) : FullAfter M (answer σ out r) := by
  cases r <;> exact h

theorem answer_returns {α : Type} (out : α → Out L A V) (r : Except Exn α) : answer σ out r ≠ .terminated := by
  cases r <;> simp [answer]

theorem qstep_lives {q : Query L V} (h : AllLive σ (qoperands q)) : LivesOn .neither σ (qstep C f σ q) := by
  cases q with
  | eq x y =>
    obtain ⟨a, ha⟩ := h x (by simp [qoperands]); obtain ⟨b, hb⟩ := h y (by simp [qoperands])
    simp only [qstep, ha, hb]; exact answer_lives _ _
  | cmp x y =>
    obtain ⟨a, ha⟩ := h x (by simp [qoperands]); obtain ⟨b, hb⟩ := h y (by simp [qoperands])
    simp only [qstep, ha, hb]; exact answer_lives _ _
  | eqU x w => obtain ⟨a, ha⟩ := h x (by simp [qoperands]); simp only [qstep, ha]; exact answer_lives _ _
  | cmpU x w => obtain ⟨a, ha⟩ := h x (by simp [qoperands]); simp only [qstep, ha]; exact answer_lives _ _
  | hash x => obtain ⟨a, ha⟩ := h x (by simp [qoperands]); simp only [qstep, ha]; exact answer_lives _ _

theorem qstep_full {q : Query L V} (h : Full M σ) : FullAfter M (qstep C f σ q) := by
  cases q <;> simp only [qstep] <;> split <;> first | trivial | exact answer_full h _ _

theorem qstep_returns {q : Query L V} : qstep C f σ q ≠ .terminated := by
  cases q <;> simp only [qstep] <;> split <;> first | exact answer_returns _ _ | simp

theorem qstep14_lives {q : Query14 L V} (h : AllLive σ (qoperands14 q)) : LivesOn .neither σ (qstep14 C f σ q) := by
  cases q with
  | rel r x y =>
    obtain ⟨a, ha⟩ := h x (by simp [qoperands14]); obtain ⟨b, hb⟩ := h y (by simp [qoperands14])
    simp only [qstep14, ha, hb]; exact answer_lives _ _
  | relIU r x w => obtain ⟨a, ha⟩ := h x (by simp [qoperands14]); simp only [qstep14, ha]; exact answer_lives _ _
  | relUI r w x => obtain ⟨a, ha⟩ := h x (by simp [qoperands14]); simp only [qstep14, ha]; exact answer_lives _ _
  | hash x => obtain ⟨a, ha⟩ := h x (by simp [qoperands14]); simp only [qstep14, ha]; exact answer_lives _ _

theorem qstep14_full {q : Query14 L V} (h : Full M σ) : FullAfter M (qstep14 C f σ q) := by
  cases q <;> simp only [qstep14] <;> split <;> first | trivial | exact answer_full h _ _

theorem qstep14_returns {q : Query14 L V} : qstep14 C f σ q ≠ .terminated := by
  cases q <;> simp only [qstep14] <;> split <;> first | exact answer_returns _ _ | simp

end

/-! ## Blocks -/

section
variable {L A V N C α : Type} [DecidableEq L]

/-- What is needed of the calls: lifetimes, and that the rules imply the preconditions. -/
structure CallRules (step : Bool → N → Boxes L A V → C → Result L A V) (legal : Boxes L A V → C → Prop) (life : C → Life L) : Prop where
  lives : ∀ m n σ c, legal σ c → LivesOn (life c) σ (step m n σ c)
  fresh : ∀ σ c x, legal σ c → life c = .begins x → σ x = none
  ends : ∀ m n σ c x e σ', life c = .ends x → step m n σ c ≠ .threw e σ'

/-- The rules for the text of programs. -/
structure CallTextRules (step : Bool → N → Boxes L A V → C → Result L A V) (legal : Boxes L A V → C → Prop) (life : C → Life L)
    (uses : C → List L) (respects : C → Prop) (M : L → Prop) : Prop extends CallRules step legal life where
  legal_of : ∀ σ c, Full M σ → Ready (life c) (uses c) σ → respects c → legal σ c
  ends_uses : ∀ c x, life c = .ends x → ∀ z ∈ uses c, z = x
  full : ∀ m n σ c, Full M σ → respects c → FullAfter M (step m n σ c)
  returns : ∀ m n σ c, step m n σ c ≠ .terminated

variable {step : Bool → N → Boxes L A V → C → Result L A V} {legal : Boxes L A V → C → Prop} {life : C → Life L}
  {uses : C → List L} {respects : C → Prop} {M : L → Prop}

theorem scoped_live (H : CallRules step legal life) (b : Block C (Out L A V) α) : ∀ {σ σ' : Boxes L A V} {luck : Nat → Bool × N}
    {r : Except Exn α}, Careful step legal b.client σ → Scoped life b → runOn step b.client luck σ = .done r σ' →
    ∀ z, (σ' z).isSome = (σ z).isSome := by
  induction b with
  | ret a => intro σ σ' luck r _ _ h z; cases h; rfl
  | throw e => intro σ σ' luck r _ _ h z; cases h; rfl
  | call c k ih =>
    intro σ σ' luck r hc hs h z
    have h1 := hc.2 (luck 0).1 (luck 0).2
    have h2 := H.lives (luck 0).1 (luck 0).2 σ c hc.1
    simp only [Block.client, runOn] at h h1
    rw [hs.1] at h2
    cases ho : step (luck 0).1 (luck 0).2 σ c <;> rw [ho] at h h1 h2 <;> simp only at h h1
    · exact (ih _ h1 (hs.2 _) h z).trans (h2 z)
    · exact (ih _ h1 (hs.2 _) h z).trans (h2 z)
    · cases h
  | declare mk d body k ihb ihk =>
    intro σ σ' luck r hc hs h z
    obtain ⟨⟨x, hm, hd⟩, hs1, hs2⟩ := hs
    simp only [Block.client, runOn, Careful] at h hc
    obtain ⟨hl, h1⟩ := hc
    have h1 := h1 (luck 0).1 (luck 0).2
    have h2 := H.lives (luck 0).1 (luck 0).2 σ mk hl
    have h0 := H.fresh σ mk x hl hm
    cases ho : step (luck 0).1 (luck 0).2 σ mk <;> rw [ho] at h h1 h2 <;> simp only at h h1
    · rename_i o σ₁
      rw [hm] at h2
      have c1 := careful_left _ h1
      rcases runOn_bind _ h with ⟨a, σ₂, luck', e1, e2⟩ | ⟨-, e⟩ | ⟨-, e⟩
      · have h3 := ihb c1 hs1 e1
        have c2 := careful_right _ h1 e1
        have h4 := c2.2 (luck' 0).1 (luck' 0).2
        have h5 := H.lives (luck' 0).1 (luck' 0).2 σ₂ d c2.1
        rw [hd] at h5
        simp only [runOn] at e2
        cases ho' : step (luck' 0).1 (luck' 0).2 σ₂ d <;> rw [ho'] at e2 h4 h5 <;> simp only at e2 h4
        · rw [ihk _ h4 (hs2 _) e2 z, h5 z, h3 z, h2 z]
          by_cases hz : z = x
          · subst hz; simp [aliveAfter, h0]
          · simp [aliveAfter, hz]
        · exact absurd ho' (H.ends _ _ _ _ _ _ _ hd)
        · cases e2
      · cases e
      · cases e
    · exact (ihk _ h1 (hs2 _) h z).trans (h2 z)
    · cases h

theorem inScope_scoped (b : Block C (Out L A V) α) : ∀ {Γ : L → Prop}, InScope life uses respects Γ b → Scoped life b := by
  induction b with
  | ret a => exact fun _ => trivial
  | throw e => exact fun _ => trivial
  | call c k ih => exact fun h => ⟨h.1, fun o => ih o (h.2.2.2 o)⟩
  | declare mk d body k ihb ihk =>
    rintro Γ ⟨x, hm, hd, -, -, -, -, hb, hk⟩
    exact ⟨⟨x, hm, hd⟩, ihb hb, fun r => ihk r (hk r)⟩

theorem inScope_runs [Inhabited N] (H : CallTextRules step legal life uses respects M) (b : Block C (Out L A V) α) :
    ∀ {Γ : L → Prop} {σ : Boxes L A V}, InScope life uses respects Γ b → (∀ z, Γ z ↔ (σ z).isSome = true) → Full M σ →
      Careful step legal b.client σ ∧ ∀ luck, ∃ r σ', runOn step b.client luck σ = .done r σ' ∧
        (∀ z, (σ' z).isSome = (σ z).isSome) ∧ Full M σ' := by
  induction b with
  | ret a => exact fun _ _ hF => ⟨trivial, fun _ => ⟨_, _, rfl, fun _ => rfl, hF⟩⟩
  | throw e => exact fun _ _ hF => ⟨trivial, fun _ => ⟨_, _, rfl, fun _ => rfl, hF⟩⟩
  | call c k ih =>
    intro Γ σ hI hΓ hF
    obtain ⟨hn, hu, hr, hk⟩ := hI
    have hl : legal σ c := H.legal_of σ c hF ⟨fun z hz => (hΓ z).1 (hu z hz), by simp [hn], by simp [hn]⟩ hr
    have next : ∀ m n, match step m n σ c with
        | .ret o σ' => Careful step legal (k (.ret o)).client σ' ∧ ∀ luck, ∃ r σ'', runOn step (k (.ret o)).client luck σ' =
            .done r σ'' ∧ (∀ z, (σ'' z).isSome = (σ z).isSome) ∧ Full M σ''
        | .threw e σ' => Careful step legal (k (.exn e)).client σ' ∧ ∀ luck, ∃ r σ'', runOn step (k (.exn e)).client luck σ' =
            .done r σ'' ∧ (∀ z, (σ'' z).isSome = (σ z).isSome) ∧ Full M σ''
        | _ => False := by
      intro m n
      have h1 := H.lives m n σ c hl
      have h2 := H.full m n σ c hF hr
      have h3 := H.returns m n σ c
      rw [hn] at h1
      have go : ∀ o σ', (∀ z, (σ' z).isSome = (σ z).isSome) → Full M σ' → Careful step legal (k o).client σ' ∧ ∀ luck, ∃ r σ'',
          runOn step (k o).client luck σ' = .done r σ'' ∧ (∀ z, (σ'' z).isSome = (σ z).isSome) ∧ Full M σ'' := by
        intro o σ' e1 e2
        obtain ⟨i1, i2⟩ := ih o (hk o) (fun z => by rw [e1 z]; exact hΓ z) e2
        refine ⟨i1, fun luck => ?_⟩
        obtain ⟨r, σ'', a1, a2, a3⟩ := i2 luck
        exact ⟨r, σ'', a1, fun z => (a2 z).trans (e1 z), a3⟩
      cases ho : step m n σ c <;> rw [ho] at h1 h2 h3 <;> simp only
      · exact go _ _ h1 h2
      · exact go _ _ h1 h2
      · exact h3 rfl
      · exact h1
    refine ⟨⟨hl, fun m n => ?_⟩, fun luck => ?_⟩
    · have := next m n
      cases ho : step m n σ c <;> rw [ho] at this <;> simp only at this ⊢
      · exact this.1
      · exact this.1
    · have := next (luck 0).1 (luck 0).2
      simp only [Block.client, runOn]
      cases ho : step (luck 0).1 (luck 0).2 σ c <;> rw [ho] at this <;> simp only at this ⊢
      · exact this.2 _
      · exact this.2 _
  | declare mk d body k ihb ihk =>
    intro Γ σ hI hΓ hF
    obtain ⟨x, hm, hd, hx, hu, hr, hrd, hb, hk⟩ := hI
    have h0 : σ x = none := by
      cases hh : σ x with
      | none => rfl
      | some b => exact absurd ((hΓ x).2 (by rw [hh]; rfl)) hx
    have hl : legal σ mk := H.legal_of σ mk hF
      ⟨fun z hz => (hΓ z).1 (hu z hz), fun y hy => by rw [hm] at hy; cases hy; exact h0, by simp [hm]⟩ hr
    have go : ∀ r σ', (∀ z, (σ' z).isSome = (σ z).isSome) → Full M σ' → Careful step legal (k r).client σ' ∧ ∀ luck, ∃ r' σ'',
        runOn step (k r).client luck σ' = .done r' σ'' ∧ (∀ z, (σ'' z).isSome = (σ z).isSome) ∧ Full M σ'' := by
      intro o σ' e1 e2
      obtain ⟨i1, i2⟩ := ihk o (hk o) (fun z => by rw [e1 z]; exact hΓ z) e2
      refine ⟨i1, fun luck => ?_⟩
      obtain ⟨r, σ'', a1, a2, a3⟩ := i2 luck
      exact ⟨r, σ'', a1, fun z => (a2 z).trans (e1 z), a3⟩
    -- the end of the block, and what follows
    have close : ∀ r σ₂, (∀ z, (σ₂ z).isSome = aliveAfter (.begins x) z (σ z).isSome) → Full M σ₂ →
        Careful step legal (.call d fun _ => (k r).client) σ₂ ∧ ∀ luck, ∃ r' σ'',
          runOn step (.call d fun _ => (k r).client) luck σ₂ = .done r' σ'' ∧ (∀ z, (σ'' z).isSome = (σ z).isSome) ∧ Full M σ'' := by
      intro r σ₂ e1 e2
      have hl2 : legal σ₂ d := H.legal_of σ₂ d e2 ⟨?_, by simp [hd], fun y hy => ?_⟩ hrd
      have one : ∀ m n, match step m n σ₂ d with
          | .ret _ σ' => Careful step legal (k r).client σ' ∧ ∀ luck, ∃ r' σ'', runOn step (k r).client luck σ' = .done r' σ'' ∧
              (∀ z, (σ'' z).isSome = (σ z).isSome) ∧ Full M σ''
          | _ => False := by
        intro m n
        have h1 := H.lives m n σ₂ d hl2
        have h2 := H.full m n σ₂ d e2 hrd
        have h3 := H.returns m n σ₂ d
        have h4 := H.ends m n σ₂ d x
        rw [hd] at h1
        cases ho : step m n σ₂ d <;> rw [ho] at h1 h2 h3 h4 <;> simp only
        · refine go _ _ (fun z => ?_) h2
          rw [h1 z, e1 z]
          by_cases hz : z = x
          · subst hz; simp [aliveAfter, h0]
          · simp [aliveAfter, hz]
        · exact h4 _ _ hd rfl
        · exact h3 rfl
        · exact h1
      refine ⟨⟨hl2, fun m n => ?_⟩, fun luck => ?_⟩
      · have := one m n
        cases ho : step m n σ₂ d <;> rw [ho] at this <;> simp only at this ⊢
        exact this.1
      · have := one (luck 0).1 (luck 0).2
        simp only [runOn]
        cases ho : step (luck 0).1 (luck 0).2 σ₂ d <;> rw [ho] at this <;> simp only at this ⊢
        exact this.2 _
      · intro z hz; rw [e1 z, H.ends_uses d x hd z hz]; simp [aliveAfter]
      · rw [hd] at hy; cases hy; rw [e1]; simp [aliveAfter]
    have whole : ∀ m n, match step m n σ mk with
        | .ret _ σ' => Careful step legal (body.client.bind fun r => .call d fun _ => (k r).client) σ' ∧ ∀ luck, ∃ r' σ'',
            runOn step (body.client.bind fun r => .call d fun _ => (k r).client) luck σ' = .done r' σ'' ∧
              (∀ z, (σ'' z).isSome = (σ z).isSome) ∧ Full M σ''
        | .threw e σ' => Careful step legal (k (.error e)).client σ' ∧ ∀ luck, ∃ r' σ'', runOn step (k (.error e)).client luck σ' =
            .done r' σ'' ∧ (∀ z, (σ'' z).isSome = (σ z).isSome) ∧ Full M σ''
        | _ => False := by
      intro m n
      have h1 := H.lives m n σ mk hl
      have h2 := H.full m n σ mk hF hr
      have h3 := H.returns m n σ mk
      rw [hm] at h1
      cases ho : step m n σ mk <;> rw [ho] at h1 h2 h3 <;> simp only
      · rename_i o σ₁
        obtain ⟨b1, b2⟩ := ihb hb (σ := σ₁) (fun z => by
          rw [h1 z]
          by_cases hz : z = x
          · simp [aliveAfter, hz]
          · simp [aliveAfter, hz, hΓ z]) h2
        refine ⟨careful_bind _ b1 fun luck a σ' he => ?_, fun luck => ?_⟩
        · obtain ⟨r, σ'', a1, a2, a3⟩ := b2 luck
          rw [he] at a1; cases a1
          exact (close _ _ (fun z => (a2 z).trans (h1 z)) a3).1
        · rcases runOn_bind (E := _) body.client rfl with ⟨a, σ', luck', e1, e2⟩ | ⟨e1, -⟩ | ⟨e1, -⟩
          · obtain ⟨r, σ'', a1, a2, a3⟩ := b2 luck
            rw [e1] at a1; cases a1
            obtain ⟨r', σ₃, q1, q2⟩ := (close _ _ (fun z => (a2 z).trans (h1 z)) a3).2 luck'
            exact ⟨r', σ₃, e2.symm.trans q1, q2⟩
          · obtain ⟨r, σ'', a1, -⟩ := b2 luck; rw [e1] at a1; cases a1
          · obtain ⟨r, σ'', a1, -⟩ := b2 luck; rw [e1] at a1; cases a1
      · exact go _ _ h1 h2
      · exact h3 rfl
      · exact h1
    refine ⟨?_, fun luck => ?_⟩
    · rw [Block.client]
      refine ⟨hl, fun m n => ?_⟩
      have := whole m n
      cases ho : step m n σ mk <;> rw [ho] at this <;> simp only at this ⊢
      · exact this.1
      · exact this.1
    · have := whole (luck 0).1 (luck 0).2
      simp only [Block.client, runOn]
      cases ho : step (luck 0).1 (luck 0).2 σ mk <;> rw [ho] at this <;> simp only at this ⊢
      · exact this.2 _
      · exact this.2 _

end

/-! ## The four headers -/

section
variable {L A R V X : Type} [DecidableEq L] (tr : ATraits A R) (T : TSpec V X) (C : TCmp V) (M : L → Prop)

theorem estep_rules : CallRules (estep tr T C) (ELegal tr) (elife : Either (Op L A V X) (Query L V) → Life L) where
  lives m n σ c h := by
    cases c with
    | call o => exact step_lives tr T m (n 0) h
    | query q => exact qstep_lives C n h
  fresh σ c x h hl := by
    cases c with
    | call o => cases o <;> cases hl <;> exact h.1
    | query q => cases hl
  ends m n σ c x e σ' hl := by
    cases c with
    | call o => cases o <;> cases hl; simp [estep, step]
    | query q => cases hl

theorem estep_text (hA : ∀ a b, tr.eq a b = true) :
    CallTextRules (estep tr T C) (ELegal tr) (elife : Either (Op L A V X) (Query L V) → Life L) (euses qoperands) (ERespects M) M where
  toCallRules := estep_rules tr T C
  legal_of σ c hF hr hM := by
    cases c with
    | call o => exact legal_of tr hA hF hr hM
    | query q => exact fun z hz => live_of (hr.1 z hz)
  ends_uses c x hl z hz := by
    cases c with
    | call o => cases o <;> cases hl; simpa [euses, uses, operands] using hz
    | query q => cases hl
  full m n σ c hF hM := by
    cases c with
    | call o => exact step_full tr T m (n 0) hF hM
    | query q => exact qstep_full C n hF
  returns m n σ c := by
    cases c with
    | call o => exact step_returns tr T m (n 0) hA o
    | query q => exact qstep_returns C n

theorem estep14_rules : CallRules (estep14 tr T C) (ELegal14 tr) (elife : Either (Op L A V X) (Query14 L V) → Life L) where
  lives m n σ c h := by
    cases c with
    | call o => exact step_lives tr T.cxx14 m (n 0) h
    | query q => exact qstep14_lives C n h
  fresh σ c x h hl := by
    cases c with
    | call o => cases o <;> cases hl <;> exact h.1
    | query q => cases hl
  ends m n σ c x e σ' hl := by
    cases c with
    | call o => cases o <;> cases hl; simp [estep14, step]
    | query q => cases hl

theorem estep14_text (hA : ∀ a b, tr.eq a b = true) :
    CallTextRules (estep14 tr T C) (ELegal14 tr) (elife : Either (Op L A V X) (Query14 L V) → Life L) (euses qoperands14) (ERespects M)
      M where
  toCallRules := estep14_rules tr T C
  legal_of σ c hF hr hM := by
    cases c with
    | call o => exact legal_of tr hA hF hr hM
    | query q => exact fun z hz => live_of (hr.1 z hz)
  ends_uses c x hl z hz := by
    cases c with
    | call o => cases o <;> cases hl; simpa [euses, uses, operands] using hz
    | query q => cases hl
  full m n σ c hF hM := by
    cases c with
    | call o => exact step_full tr T.cxx14 m (n 0) hF hM
    | query q => exact qstep14_full C n hF
  returns m n σ c := by
    cases c with
    | call o => exact step_returns tr T.cxx14 m (n 0) hA o
    | query q => exact qstep14_returns C n

end

section
variable {L A R V X Ty : Type} [DecidableEq L] (tr : ATraits A R) (P : PSpec Ty V X) (M : L → Prop)

theorem pstep_rules : CallRules (pstep tr P) (PLegal tr) (plife : POp L A Ty V X → Life L) where
  lives m n σ c h := pstep_lives tr P m n h
  fresh σ c x h hl := by cases c <;> cases hl <;> exact h.1
  ends m n σ c x e σ' hl := by cases c <;> cases hl; simp [pstep]

theorem pstep_text (hA : ∀ a b, tr.eq a b = true) :
    CallTextRules (pstep tr P) (PLegal tr) (plife : POp L A Ty V X → Life L) puses (PRespects M) M where
  toCallRules := pstep_rules tr P
  legal_of σ c hF hr hM := plegal_of tr hA hF hr hM
  ends_uses c x hl z hz := by cases c <;> cases hl; simpa [puses, poperands] using hz
  full m n σ c hF hM := pstep_full tr P m n hF hM
  returns m n σ c := pstep_returns tr P m n hA c

theorem pstep14_rules : CallRules (pstep14 tr P) (PLegal tr) (plife : POp L A Ty V X → Life L) where
  lives m n σ c h := by
    obtain ⟨o, e1, e2, e3, -⟩ := pstep14_like (M := fun _ => True) tr P m n (σ := σ) c
    rw [e1, ← e2]; exact pstep_lives tr P m n (e3 h)
  fresh σ c x h hl := by cases c <;> cases hl <;> exact h.1
  ends m n σ c x e σ' hl := by cases c <;> cases hl; simp [pstep14, pstep]

theorem pstep14_text (hA : ∀ a b, tr.eq a b = true) :
    CallTextRules (pstep14 tr P) (PLegal tr) (plife : POp L A Ty V X → Life L) puses (PRespects M) M where
  toCallRules := pstep14_rules tr P
  legal_of σ c hF hr hM := plegal_of tr hA hF hr hM
  ends_uses c x hl z hz := by cases c <;> cases hl; simpa [puses, poperands] using hz
  full m n σ c hF hM := by
    obtain ⟨o, e1, -, -, e4⟩ := pstep14_like (M := M) tr P m n (σ := σ) c
    rw [e1]; exact pstep_full tr P m n hF (e4 hM)
  returns m n σ c := by
    obtain ⟨o, e1, -⟩ := pstep14_like (M := M) tr P m n (σ := σ) c
    rw [e1]; exact pstep_returns tr P m n hA o

end
end Verif.Spec

namespace Verif.Conc
open Verif

section
variable {L A R B V N C α : Type} [DecidableEq L] [DecidableEq R] [Body B]

theorem runOn_of_ok (api : VApi L A R B V N C) {p : Client C (Out L A V) α} {es : Nat → Env} {s s' : St L A R B} {a : α}
    (ok : api.Ok s) (hc : Spec.Careful api.step api.vlegal p (api.abs s)) (hr : p.run api.call es s = .ok a s') :
    Spec.runOn api.step p (Spec.luckOf api.call api.seed p es s) (api.abs s) = .done a (api.abs s') := by
  have := (client_run api p es s ok hc).1
  rw [hr] at this
  cases hv : Spec.runOn api.step p (Spec.luckOf api.call api.seed p es s) (api.abs s) <;> rw [hv] at this
  · simp only [Spec.EndsAs] at this; rw [this.1, this.2]
  · exact this.elim
  · exact this.elim

theorem block_live (api : VApi L A R B V N C) {life : C → Spec.Life L} (H : Spec.CallRules api.step api.vlegal life)
    {b : Block C (Out L A V) α} {es : Nat → Env} {s s' : St L A R B} {r : Except Exn α} (ok : api.Ok s)
    (hs : Spec.Scoped life b) (hc : Spec.Careful api.step api.vlegal b.client (api.abs s))
    (hr : b.client.run api.call es s = .ok r s') (z : L) : (api.abs s' z).isSome = (api.abs s z).isSome :=
  Spec.scoped_live H b hc hs (runOn_of_ok api ok hc hr) z

/-- A property of states that all calls keep. -/
theorem client_keeps (api : VApi L A R B V N C) (J : St L A R B → Prop)
    (hJ : ∀ c e s, api.Ok s → api.vlegal (api.abs s) c → J s → (api.call c e s).All J) (p : Client C (Out L A V) α) :
    ∀ {es : Nat → Env} {s s' : St L A R B} {a : α}, api.Ok s → Spec.Careful api.step api.vlegal p (api.abs s) → J s →
    p.run api.call es s = .ok a s' → J s' := by
  induction p with
  | ret a => intro es s s' b _ _ j h; cases h; exact j
  | call c k ih =>
    intro es s s' a ok hc j h
    obtain ⟨hl, hk⟩ := hc
    have h1 := api.safe c (es 0) s ok ((api.legal_eq s c).2 hl)
    have h2 := api.refines s c (es 0) ok hl
    have h3 := hk (available s (es 0)) (api.seed (es 0))
    have h4 := hJ c (es 0) s ok hl j
    simp only [Client.run] at h
    cases hr : api.call c (es 0) s <;> rw [hr] at h h1 h2 h4 <;> simp only at h h2
    · rw [h2] at h3; exact ih _ h1 h3 h4 h
    · rw [h2] at h3; exact ih _ h1 h3 h4 h
    · cases h

theorem block_text (api : VApi L A R B V N C) [Inhabited N] {life : C → Spec.Life L} {uses : C → List L} {respects : C → Prop}
    {M : L → Prop} (H : Spec.CallTextRules api.step api.vlegal life uses respects M) (b : Block C (Out L A V) α) {Γ : L → Prop}
    {s : St L A R B} (ok : api.Ok s) (hb : Spec.InScope life uses respects Γ b) (hΓ : ∀ z, Γ z ↔ (api.abs s z).isSome = true)
    (hF : Spec.Full M (api.abs s)) (es : Nat → Env) :
    Spec.Careful api.step api.vlegal b.client (api.abs s) ∧ ∃ r s', b.client.run api.call es s = .ok r s' ∧
      (∀ z, (api.abs s' z).isSome = (api.abs s z).isSome) ∧ Spec.Full M (api.abs s') := by
  obtain ⟨h1, h2⟩ := Spec.inScope_runs H b hb hΓ hF
  refine ⟨h1, ?_⟩
  obtain ⟨r, σ', e1, e2, e3⟩ := h2 (Spec.luckOf api.call api.seed b.client es s)
  have := (client_run api b.client es s ok h1).1
  rw [e1] at this
  cases hr : b.client.run api.call es s <;> rw [hr] at this <;> simp only [Spec.EndsAs] at this
  obtain ⟨rfl, rfl⟩ := this
  exact ⟨_, _, rfl, e2, e3⟩

end
end Verif.Conc

namespace Verif.Conc
open Verif

/-! ## Nothing is left -/

section
variable {L A R V X α : Type} [DecidableEq L] [DecidableEq R] (tr : ATraits A R) (T : TSpec V X) (C : TCmp V)

theorem replies_traceOk {s : St L A R (Obj V)} {r : Spec.Result L A V} {x : Res (St L A R (Obj V)) (Out L A V)} (h : Replies s r x)
    (ht : TraceOk s) : x.All TraceOk := by
  cases x <;> simp only [Replies] at h
  · obtain ⟨-, -, h2, h3⟩ := h; show TraceOk _; unfold TraceOk; rw [h2, h3]; exact ht
  · obtain ⟨-, -, h2, h3⟩ := h; show TraceOk _; unfold TraceOk; rw [h2, h3]; exact ht
  all_goals exact h.elim

theorem either_traceOk (c : Either (Op L A V X) (Query L V)) (e : Env) (s : St L A R (Obj V)) (I : Indirect.IInv tr s)
    (hl : Spec.ELegal tr (Indirect.abs s) c) (ht : TraceOk s) : (call tr T C c e s).All TraceOk := by
  cases c with
  | call o => exact Indirect.traceOk_call tr T o e s ht
  | query q => exact replies_traceOk (query_replies (s := s.enter e) C q I hl) ht

theorem either14_traceOk (c : Either (Op L A V X) (Query14 L V)) (e : Env) (s : St L A R (Obj V)) (I : Indirect.IInv tr s)
    (hl : Spec.ELegal14 tr (Indirect.abs s) c) (ht : TraceOk s) : (call14 tr T C c e s).All TraceOk := by
  cases c with
  | call o =>
    show (Indirect14.call tr (plain T) o e s).All TraceOk
    rw [Indirect14.call_eq]; exact Indirect.traceOk_call tr T.cxx14 o e s ht
  | query q => exact replies_traceOk (query14_replies (s := s.enter e) C q I hl) ht

theorem gone_of {s : St L A R (Obj V)} (I : Indirect.IInv tr s) (ht : TraceOk s) (hd : ∀ z, (Indirect.abs s z).isSome = false) :
    Spec.AllGone s := by
  have hd' : ∀ z, Indirect.abs s z = none := fun z => by
    cases h : Indirect.abs s z with
    | none => rfl
    | some b => have := hd z; rw [h] at this; cases this
  have := fun p => Composite.iok_no_leak (tr := tr) ⟨I, ht⟩ hd' p
  exact ⟨fun z => Indirect.abs_dead (hd' z), fun p => (this p).1, ⟨_, ht⟩, fun p => (this p).2⟩

end
end Verif.Conc
