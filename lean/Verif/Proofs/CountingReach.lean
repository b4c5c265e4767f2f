import Verif.Proofs.CountingPoly

/-! Allocators that record calls of `construct` and `destroy`: what programs reach. -/

set_option autoImplicit false
set_option linter.unusedSectionVars false
set_option linter.unusedSimpArgs false

namespace Verif

namespace Counted
open Spec (Slot slotAt customCalls Owns Paired)
open Composite (IOk POk)

section
variable {R : Type} [DecidableEq R]

/-- Where nothing happened that must not happen, the calls of `construct` that no call of `destroy` answered are those for what is
there now. -/
theorem balance (k : Part) (r : R) (t : List (Ev R)) (h : ∀ p, slotAt p k t ≠ none) :
    ∃ ps : List Addr, ps.Nodup ∧ (∀ p, p ∈ ps ↔ slotAt p k t = some (.filled r)) ∧
      customCalls .construct k r t = customCalls .destroy k r t + ps.length := by
  rw [← List.reverse_reverse t] at h ⊢
  generalize t.reverse = u at h
  induction u with
  | nil => exact ⟨[], by simp, by simp [slotAt], by simp [customCalls]⟩
  | cons ev u ih =>
    simp only [List.reverse_cons] at h ⊢
    have hx : ∀ p, ∃ x y, slotAt p k u.reverse = some x ∧ Slot.next p k x ev = some y ∧ slotAt p k (u.reverse ++ [ev]) = some y := by
      intro p
      have := h p
      rw [slotAt_snoc] at this ⊢
      cases hs : slotAt p k u.reverse with
      | none => rw [hs] at this; exact absurd rfl this
      | some x =>
        rw [hs] at this
        simp only [Option.bind_some] at this ⊢
        cases hn : Slot.next p k x ev with
        | none => exact absurd hn this
        | some y => exact ⟨x, y, rfl, hn, rfl⟩
    obtain ⟨ps, h1, h2, h3⟩ := ih (fun p => by obtain ⟨x, y, hp, -⟩ := hx p; rw [hp]; simp)
    simp only [customCalls_append]
    -- blocks that the event does not change
    have same : (∀ p, ∀ x y, slotAt p k u.reverse = some x → Slot.next p k x ev = some y → (x = .filled r ↔ y = .filled r)) →
        ∀ p, p ∈ ps ↔ slotAt p k (u.reverse ++ [ev]) = some (.filled r) := by
      intro hs p
      obtain ⟨x, y, hp, hn, hy⟩ := hx p
      rw [h2 p, hp, hy]
      simp only [Option.some.injEq]
      exact hs p x y hp hn
    cases ev with
    | alloc r' q =>
      refine ⟨ps, h1, same ?_, by simp [customCalls]; exact h3⟩
      intro p x y _ hn
      simp only [Slot.next] at hn
      by_cases e : q = p
      · by_cases e' : x = .free
        · simp [e, e'] at hn; subst hn; subst e'; simp
        · simp [e, e'] at hn
      · simp [e] at hn; rw [hn]
    | dealloc r' q =>
      refine ⟨ps, h1, same ?_, by simp [customCalls]; exact h3⟩
      intro p x y _ hn
      simp only [Slot.next] at hn
      by_cases e : q = p
      · by_cases e' : x = .storage r' ∨ x = .emptied r'
        · simp [e, e'] at hn; subst hn; rcases e' with rfl | rfl <;> simp
        · simp [e, e'] at hn
      · simp [e] at hn; rw [hn]
    | construct q how => exact ⟨ps, h1, same (fun p x y _ hn => by simp [Slot.next] at hn; rw [hn]), by simp [customCalls]; exact h3⟩
    | assign q how => exact ⟨ps, h1, same (fun p x y _ hn => by simp [Slot.next] at hn; rw [hn]), by simp [customCalls]; exact h3⟩
    | destroy q => exact ⟨ps, h1, same (fun p x y _ hn => by simp [Slot.next] at hn; rw [hn]), by simp [customCalls]; exact h3⟩
    | custom c j r' q =>
      by_cases hj : j = k
      · subst hj
        cases c with
        | construct =>
          have hq : slotAt q j u.reverse = some (.storage r') := by
            obtain ⟨x, y, hp, hn, -⟩ := hx q
            by_cases e : x = .storage r'
            · rw [hp, e]
            · simp [Slot.next, e] at hn
          by_cases er : r' = r
          · subst er
            refine ⟨q :: ps, List.nodup_cons.2 ⟨fun hm => by rw [h2, hq] at hm; simp at hm, h1⟩, fun p => ?_,
              by simp [customCalls]; omega⟩
            obtain ⟨x, y, hp, hn, hy⟩ := hx p
            rw [List.mem_cons, h2 p, hp, hy]
            by_cases e : q = p
            · subst e; rw [hq] at hp; cases hp; simp [Slot.next] at hn; subst hn; simp
            · have e' : p ≠ q := fun h => e h.symm
              simp [Slot.next, e] at hn; subst hn; simp [e']
          · refine ⟨ps, h1, same ?_, by simp [customCalls, er]; exact h3⟩
            intro p x y hp hn
            by_cases e : q = p
            · subst e; rw [hq] at hp; cases hp; simp [Slot.next] at hn; subst hn; simp [er]
            · simp [Slot.next, e] at hn; rw [hn]
        | destroy =>
          have hq : slotAt q j u.reverse = some (.filled r') := by
            obtain ⟨x, y, hp, hn, -⟩ := hx q
            by_cases e : x = .filled r'
            · rw [hp, e]
            · simp [Slot.next, e] at hn
          by_cases er : r' = r
          · subst er
            have hm : q ∈ ps := (h2 q).2 hq
            refine ⟨ps.erase q, h1.erase q, fun p => ?_, ?_⟩
            · obtain ⟨x, y, hp, hn, hy⟩ := hx p
              rw [List.Nodup.mem_erase_iff h1, h2 p, hp, hy]
              by_cases e : q = p
              · subst e; rw [hq] at hp; cases hp; simp [Slot.next] at hn; subst hn; simp
              · have e' : p ≠ q := fun h => e h.symm
                simp [Slot.next, e] at hn; subst hn; simp [e']
            · have := List.length_erase_of_mem hm
              have h0 : 0 < ps.length := List.length_pos_of_mem hm
              simp [customCalls]; omega
          · refine ⟨ps, h1, same ?_, by simp [customCalls, er]; exact h3⟩
            intro p x y hp hn
            by_cases e : q = p
            · subst e; rw [hq] at hp; cases hp; simp [Slot.next] at hn; subst hn; simp [er]
            · simp [Slot.next, e] at hn; rw [hn]
      · refine ⟨ps, h1, same (fun p x y _ hn => by simp [Slot.next, hj] at hn; cases c <;> simp [Slot.next, hj] at hn <;> rw [hn]),
          by simp [customCalls, hj]; exact h3⟩

/-- For every object there was a control block, and no control block was destroyed with `destroy`. -/
def Bal (t : List (Ev R)) : Prop :=
  ∀ r, customCalls .destroy .block r t = 0 ∧ customCalls .construct .block r t = customCalls .construct .object r t

/-- The same while a control block for `r` is being constructed. -/
def Open (r : R) (t : List (Ev R)) : Prop :=
  ∀ r', customCalls .destroy .block r' t = 0 ∧
    customCalls .construct .object r' t = customCalls .construct .block r' t + (if r = r' then 1 else 0)

theorem any_stable : Stable (fun _ : List (Ev R) => True) := fun _ _ _ _ => trivial
theorem any_makes : Makes (fun _ : List (Ev R) => True) (fun _ => True) := fun _ _ _ _ => trivial
theorem any_drops : Drops (fun _ : List (Ev R) => True) := fun _ _ _ _ => trivial

theorem bal_stable : Stable (Bal : List (Ev R) → Prop) := by
  intro t ev hc h r
  cases ev <;> simp only [isCustom, Bool.true_eq_false] at hc <;> simp [customCalls_append, customCalls, h r]

theorem bal_makes : MakesP (Bal : List (Ev R) → Prop) Open := by
  intro r p t h r'
  simp [customCalls_append, customCalls, h r']

theorem bal_closes : Closes Open (Bal : List (Ev R) → Prop) := by
  intro r p t h r'
  simp [customCalls_append, customCalls, h r']

theorem bal_drops : Drops (Bal : List (Ev R) → Prop) := by
  intro r p t h r'
  simp [customCalls_append, customCalls, h r']

end

/-! ### Calls -/

section
variable {L A R V X Ty : Type} [DecidableEq L] [DecidableEq R] [DecidableEq Ty] {tr : ATraits A R}

/-- A computation with records does what the specification says if the one without does. -/
theorem Agree.does {B S : Type} [Body B] {J : Out L A S → St L A R B → Prop} {E : St L A R B → Prop} {val : St L A R B → Spec.Boxes L A S}
    (hv : ∀ t, val (bare t) = val t) {r r' : Res (St L A R B) (Out L A S)} {q : Spec.Result L A S} {P : St L A R B → Prop}
    (h : Agree J E r r') (hp : r'.All P) (hd : Spec.Does val r' q) (hJ : ∀ a t, J a t → E t) :
    r.All (fun t => E t ∧ P (bare t)) ∧ Spec.Does val r q := by
  cases r' with
  | ok a u =>
    cases r <;> simp only [Agree] at h
    obtain ⟨rfl, rfl, hj⟩ := h
    refine ⟨⟨hJ _ _ hj, hp⟩, ?_⟩
    cases q <;> simp only [Spec.Does] at hd ⊢
    rw [← hv]; exact hd
  | threw x u =>
    cases r <;> simp only [Agree] at h
    obtain ⟨rfl, rfl, hj⟩ := h
    refine ⟨⟨hj, hp⟩, ?_⟩
    cases q <;> simp only [Spec.Does] at hd ⊢
    rw [← hv]; exact hd
  | terminated =>
    cases r <;> simp only [Agree] at h
    exact ⟨trivial, hd⟩
  | ub u => cases q <;> simp only [Spec.Does] at hd
  | diverged => cases q <;> simp only [Spec.Does] at hd

end

end Counted

section
variable {L A R V X Ty : Type} [DecidableEq L] [DecidableEq R] [DecidableEq Ty] {tr : ATraits A R}
open Composite (IOk POk)
open Counted
open Spec (slotAt customCalls Owns Paired)

/-- What holds between calls on `indirect` objects. -/
def Indirect.CountOk (tr : ATraits A R) (s : St L A R (Obj V)) : Prop := Counted.Inv (fun _ => True) s ∧ IOk tr (bare s)

/-- What holds between calls on `polymorphic` objects. -/
def Polymorphic.CountOk (tr : ATraits A R) (s : St L A R (PBody Ty V)) : Prop := Counted.Inv Bal s ∧ POk tr (bare s)

theorem Indirect.count_does (S : tr.Sound) {s : St L A R (Obj V)} (hs : CountOk tr s) (T : TSpec V X) (o : Op L A V X) (e : Env)
    (hl : Spec.Legal tr (abs s) o) :
    (call tr (counting tr (plain T)) o e s).All (CountOk tr) ∧
      Spec.Does abs (call tr (counting tr (plain T)) o e s) (Spec.step tr T (available s e) (e.choice 0) (abs s) o) := by
  have h := sim_istep (tr := tr) (T := T) any_stable any_makes any_drops o (s.enter e) (inv_loose s _ rfl rfl hs.1)
  obtain ⟨h1, h2⟩ := plain_does S hs.2 T o e hl
  exact Agree.does (fun _ => rfl) h h1 h2 (fun _ _ h => h)

theorem Polymorphic.count_does (S : tr.Sound) {s : St L A R (PBody Ty V)} (hs : CountOk tr s) (P : PSpec Ty V X) (o : POp L A Ty V X)
    (e : Env) (hl : Spec.PLegal tr (abs s) o) :
    (call tr (countingP tr (plainP P)) o e s).All (CountOk tr) ∧
      Spec.Does abs (call tr (countingP tr (plainP P)) o e s) (Spec.pstep tr P (available s e) (e.choice 0) (abs s) o) := by
  have h := sim_pstep (tr := tr) (P := P) bal_stable bal_makes bal_closes bal_drops o (s.enter e) (inv_loose s _ rfl rfl hs.1)
  obtain ⟨h1, h2⟩ := plain_does S hs.2 P o e hl
  exact Agree.does (fun _ => rfl) h h1 h2 (fun _ _ h => h)

theorem Indirect14.count_call (T : TSpec V X) (o : Op L A V X) (e : Env) (s : St L A R (Obj V)) :
    call tr (counting tr (plain T)) o e s = Indirect.call tr (counting tr (plain T.cxx14)) o e s := by
  unfold call Indirect.call
  rw [step_eq]; rfl

theorem Polymorphic14.count_call (E : tr.Equality) (hq : tr.pocca = true → tr.alwaysEqual = true) (P : PSpec Ty V X)
    (o : POp L A Ty V X) (e : Env) (s : St L A R (PBody Ty V)) :
    call tr (countingP tr (plainP P)) o e s = Polymorphic.call tr (countingP tr (plainP P)) (fix P.base o) e s :=
  step_eq tr (countingP tr (plainP P)) E o (s.enter e) (safe_of E hq _ _)

theorem Polymorphic14.count_does (S : tr.Sound) (E : tr.Equality) (hq : tr.pocca = true → tr.alwaysEqual = true)
    {s : St L A R (PBody Ty V)} (hs : Polymorphic.CountOk tr s) (P : PSpec Ty V X) (o : POp L A Ty V X)
    (e : Env) (hl : Spec.PLegal tr (Polymorphic.abs s) o) :
    (call tr (countingP tr (plainP P)) o e s).All (Polymorphic.CountOk tr) ∧
      Spec.Does Polymorphic.abs (call tr (countingP tr (plainP P)) o e s)
        (Spec.pstep14 tr P (available s e) (e.choice 0) (Polymorphic.abs s) o) := by
  rw [count_call E hq, Conc.pstep14_eq]
  exact Polymorphic.count_does S hs P (fix P.base o) e ((legal_fix P.base).2 hl)

variable {T : TSpec V X} {P : PSpec Ty V X} {s : St L A R (Obj V)} {t : St L A R (PBody Ty V)}

theorem Indirect.CountReach.ok (S : tr.Sound) (h : Indirect.CountReach tr T s) : Indirect.CountOk tr s :=
  Spec.ReachedBy.inv (init := St.init) ⟨⟨fun _ => rfl, trivial⟩, Inv.init, rfl⟩ (fun _ o e hs hl => (count_does S hs T o e hl).1) h

theorem Indirect14.CountReach.to (h : Indirect14.CountReach tr T s) : Indirect.CountReach tr T.cxx14 s := by
  induction h with
  | init => exact .init
  | ret o e out _ hl hc ih => exact .ret o e out ih hl (by rw [← count_call]; exact hc)
  | threw o e x _ hl hc ih => exact .threw o e x ih hl (by rw [← count_call]; exact hc)

theorem Polymorphic.CountReach.ok (S : tr.Sound) (h : Polymorphic.CountReach tr P t) : Polymorphic.CountOk tr t :=
  Spec.ReachedBy.inv (init := St.init) ⟨⟨fun _ => rfl, fun _ => ⟨rfl, rfl⟩⟩, good_init, Inv.init, rfl⟩
    (fun _ o e hs hl => (count_does S hs P o e hl).1) h

theorem Polymorphic14.CountReach.ok (S : tr.Sound) (E : tr.Equality) (hq : tr.pocca = true → tr.alwaysEqual = true)
    (h : Polymorphic14.CountReach tr P t) : Polymorphic.CountOk tr t :=
  Spec.ReachedBy.inv (init := St.init) ⟨⟨fun _ => rfl, fun _ => ⟨rfl, rfl⟩⟩, Polymorphic.good_init, Inv.init, rfl⟩
    (fun _ o e hs hl => (count_does S E hq hs P o e hl).1) h

theorem Indirect.CountOk.paired (h : Indirect.CountOk tr s) : Paired tr .object s := by
  refine ⟨fun z p a hz => ?_, fun p hp => ?_⟩
  · obtain ⟨b, h1, h2⟩ := h.2.1.own z _ p hz rfl
    have h1 : s.heap p = some ⟨tr.res a, b⟩ := h1
    cases b with
    | none => cases h2
    | some v => rw [h.1.1 p, h1]; rfl
  · rw [h.1.1 p]
    cases hc : s.heap p with
    | none => rfl
    | some c =>
      obtain ⟨z, k, h1, h2⟩ := h.2.1.owned p c hc
      rcases k with ⟨q, a⟩
      cases h2
      exact absurd h1 (hp z a)

theorem Polymorphic.CountOk.paired (h : Polymorphic.CountOk tr t) : Paired tr .object t := by
  refine ⟨fun z p a hz => ?_, fun p hp => ?_⟩
  · obtain ⟨b, h1, h2⟩ := h.2.2.1.own z _ p hz rfl
    have h1 : (t.heap p).map viewCell = some ⟨tr.res a, b⟩ := h1
    rw [h.1.1 p]
    cases hc : t.heap p with
    | none => rw [hc] at h1; cases h1
    | some c =>
      rw [hc] at h1
      rcases c with ⟨r, _ | ⟨ty, q, _ | v⟩⟩ <;> cases h1
      · cases h2
      · cases h2
      · rfl
  · rw [h.1.1 p]
    cases hc : t.heap p with
    | none => rfl
    | some c =>
      obtain ⟨z, k, h1, h2⟩ := h.2.2.1.owned p (viewCell c) (by show (t.heap p).map viewCell = _; rw [hc]; rfl)
      rcases k with ⟨q, a⟩
      cases h2
      exact absurd h1 (hp z a)

theorem Counted.counts {B : Type} {s : St L A R B} (h : Paired tr .object s) (r : R) :
    ∃ ps : List Addr, ps.Nodup ∧ (∀ p, p ∈ ps ↔ ∃ z a, Owns s z p a ∧ tr.res a = r) ∧
      customCalls .construct .object r s.trace = customCalls .destroy .object r s.trace + ps.length := by
  have key : ∀ p, (∃ z a, Owns s z p a) ∨ (∀ z a, ¬ Owns s z p a) := fun p => by
    rcases Classical.em (∃ z a, Owns s z p a) with h | h
    · exact .inl h
    · exact .inr fun z a hz => h ⟨z, a, hz⟩
  obtain ⟨ps, h1, h2, h3⟩ := Counted.balance .object r s.trace (fun p => by
    rcases key p with ⟨z, a, hz⟩ | hn
    · rw [h.1 z p a hz]; simp
    · rw [h.2 p hn]; simp)
  refine ⟨ps, h1, fun p => ?_, h3⟩
  rw [h2 p]
  rcases key p with ⟨z, a, hz⟩ | hn
  · rw [h.1 z p a hz]
    constructor
    · intro e; cases e; exact ⟨z, a, hz, rfl⟩
    · rintro ⟨z', a', hz', rfl⟩
      have := h.1 z' p a' hz'
      rw [h.1 z p a hz] at this
      exact this
  · rw [h.2 p hn]
    constructor
    · intro e; cases e
    · rintro ⟨z, a, hz, -⟩; exact absurd hz (hn z a)

theorem Counted.balanced {B : Type} {s : St L A R B} (h : Paired tr .object s) (hd : ∀ z, s.hs z = none) (r : R) :
    customCalls .construct .object r s.trace = customCalls .destroy .object r s.trace := by
  obtain ⟨ps, -, h2, h3⟩ := Counted.counts h r
  cases ps with
  | nil => simpa using h3
  | cons p ps =>
    obtain ⟨z, a, hz, -⟩ := (h2 p).1 (by simp)
    rw [Owns, hd z] at hz; cases hz

end
end Verif
