import Verif.Spec.Counting
import Verif.Proofs.AwareReach

/-! Allocators that record calls of `construct` and `destroy`: the same computations as without, and the calls come in pairs. -/

set_option autoImplicit false
set_option linter.unusedSectionVars false
set_option linter.unusedSimpArgs false

namespace Verif

namespace Counted
open Spec (Slot slotAt customCalls)

section
variable {L A R B : Type} [DecidableEq L] [DecidableEq R] [Body B]

/-- Is this a call of a customised `construct` or `destroy`? -/
def isCustom : Ev R → Bool
  | .custom _ _ _ _ => true
  | _ => false

/-- The state without the records of the allocator. -/
def bare (t : St L A R B) : St L A R B := { t with trace := t.trace.filter (fun ev => !isCustom ev) }

/-- The computation with records does what the one without does. -/
def Agree {α : Type} (J : α → St L A R B → Prop) (E : St L A R B → Prop) : Res (St L A R B) α → Res (St L A R B) α → Prop
  | _, .ub _ => True
  | .ok a t, .ok b u => a = b ∧ u = bare t ∧ J a t
  | .threw x t, .threw y u => x = y ∧ u = bare t ∧ E t
  | .terminated, .terminated => True
  | .diverged, .diverged => True
  | _, _ => False

/-- From a state in which `I` holds the computation `c` with records does what `m` does without. -/
def Sim {α : Type} (I : St L A R B → Prop) (c m : M (St L A R B) α) (J : α → St L A R B → Prop) (E : St L A R B → Prop) : Prop :=
  ∀ t, I t → Agree J E (c t) (m (bare t))

variable {α β : Type} {I : St L A R B → Prop} {c m : M (St L A R B) α} {J : α → St L A R B → Prop} {E : St L A R B → Prop}

theorem sim_pure (a : α) (h : ∀ t, I t → J a t) : Sim I (pure a) (pure a) J E := fun t ht => ⟨rfl, rfl, h t ht⟩
theorem sim_throwE (x : Exn) (h : ∀ t, I t → E t) : Sim I (M.throwE x) (M.throwE x) J E := fun t ht => ⟨rfl, rfl, h t ht⟩
theorem sim_undef (u : UB) {c : M (St L A R B) α} : Sim I c (M.undef u) J E := fun t _ => by
  cases c t <;> trivial

theorem Agree.ub {J : α → St L A R B → Prop} {E : St L A R B → Prop} (r : Res (St L A R B) α) (u : UB) : Agree J E r (.ub u) := by
  cases r <;> trivial

theorem sim_bind {f g : α → M (St L A R B) β} {K : β → St L A R B → Prop} (h : Sim I c m J E) (hf : ∀ a, Sim (J a) (f a) (g a) K E) :
    Sim I (c >>= f) (m >>= g) K E := by
  intro t ht
  have := h t ht
  rw [M.bind_eq, M.bind_eq]
  cases hm : m (bare t) with
  | ub u => exact Agree.ub _ u
  | ok b u =>
    rw [hm] at this
    cases hc : c t <;> rw [hc] at this <;> try exact this.elim
    obtain ⟨rfl, rfl, hj⟩ := this
    exact hf _ _ hj
  | threw b u =>
    rw [hm] at this
    cases hc : c t <;> rw [hc] at this <;> try exact this.elim
    exact this
  | terminated =>
    rw [hm] at this
    cases hc : c t <;> rw [hc] at this <;> try exact this.elim
    trivial
  | diverged =>
    rw [hm] at this
    cases hc : c t <;> rw [hc] at this <;> try exact this.elim
    trivial

theorem sim_onThrow {k k' : M (St L A R B) Unit} {F : St L A R B → Prop} (h : Sim I c m J F) (hk : Sim F k k' (fun _ => E) E) :
    Sim I (M.onThrow c k) (M.onThrow m k') J E := by
  intro t ht
  have := h t ht
  unfold M.onThrow
  cases hm : m (bare t) with
  | ub u => exact Agree.ub _ u
  | ok b u =>
    rw [hm] at this
    cases hc : c t <;> rw [hc] at this <;> try exact this.elim
    exact this
  | threw b u =>
    rw [hm] at this
    cases hc : c t <;> rw [hc] at this <;> try exact this.elim
    obtain ⟨rfl, rfl, hj⟩ := this
    have := hk _ hj
    simp only
    rename_i x t'
    cases hm' : k' (bare t') with
    | ub u => exact Agree.ub _ u
    | ok b u =>
      rw [hm'] at this
      cases hc : k t' <;> rw [hc] at this <;> try exact this.elim
      exact ⟨rfl, this.2⟩
    | threw b u =>
      rw [hm'] at this
      cases hc : k t' <;> rw [hc] at this <;> try exact this.elim
      exact this
    | terminated =>
      rw [hm'] at this
      cases hc : k t' <;> rw [hc] at this <;> try exact this.elim
      trivial
    | diverged =>
      rw [hm'] at this
      cases hc : k t' <;> rw [hc] at this <;> try exact this.elim
      trivial
  | terminated =>
    rw [hm] at this
    cases hc : c t <;> rw [hc] at this <;> try exact this.elim
    trivial
  | diverged =>
    rw [hm] at this
    cases hc : c t <;> rw [hc] at this <;> try exact this.elim
    trivial

theorem sim_noexcept {b : Bool} (h : Sim I c m J E) : Sim I (M.noexceptIf b c) (M.noexceptIf b m) J E := by
  intro t ht
  have := h t ht
  unfold M.noexceptIf
  cases hm : m (bare t) with
  | ub u => exact Agree.ub _ u
  | threw y u =>
    rw [hm] at this
    cases hc : c t <;> rw [hc] at this <;> try exact this.elim
    cases b
    · exact this
    · trivial
  | ok a u =>
    rw [hm] at this
    cases hc : c t <;> rw [hc] at this <;> try exact this.elim
    exact this
  | terminated =>
    rw [hm] at this
    cases hc : c t <;> rw [hc] at this <;> try exact this.elim
    trivial
  | diverged =>
    rw [hm] at this
    cases hc : c t <;> rw [hc] at this <;> try exact this.elim
    trivial

theorem sim_ite {p : Prop} [Decidable p] {c' m' : M (St L A R B) α} (h : Sim I c m J E) (h' : Sim I c' m' J E) :
    Sim I (if p then c else c') (if p then m else m') J E := by split <;> assumption

theorem sim_mono {I' : St L A R B → Prop} {J' : α → St L A R B → Prop} {E' : St L A R B → Prop} (h : Sim I c m J E) (hi : ∀ t, I' t → I t)
    (hj : ∀ a t, J a t → J' a t) (he : ∀ t, E t → E' t) : Sim I' c m J' E' := by
  intro t ht
  have := h t (hi t ht)
  cases hm : m (bare t) <;> rw [hm] at this <;> cases hc : c t <;> rw [hc] at this <;> try exact this
  · exact ⟨this.1, this.2.1, hj _ _ this.2.2⟩
  · exact ⟨this.1, this.2.1, he _ this.2.2⟩

/-- One more record. -/
theorem sim_record {I : St L A R B → Prop} {c m : M (St L A R B) Unit} {J J' : Unit → St L A R B → Prop} {E : St L A R B → Prop}
    (h : Sim I c m J E) (k : Custom) (part : Part) (r : R) (p : Addr)
    (hj : ∀ t, J () t → J' () { t with trace := t.trace ++ [.custom k part r p] }) :
    Sim I (do c; emit (.custom k part r p)) m J' E := by
  intro t ht
  have := h t ht
  rw [M.bind_eq]
  cases hm : m (bare t) with
  | ub u => exact Agree.ub _ u
  | ok b u =>
    rw [hm] at this
    cases hc : c t <;> rw [hc] at this <;> try exact this.elim
    obtain ⟨rfl, rfl, h3⟩ := this
    refine ⟨rfl, ?_, hj _ h3⟩
    simp [bare, isCustom]
  | threw b u =>
    rw [hm] at this
    cases hc : c t <;> rw [hc] at this <;> try exact this.elim
    exact this
  | terminated =>
    rw [hm] at this
    cases hc : c t <;> rw [hc] at this <;> try exact this.elim
    trivial
  | diverged =>
    rw [hm] at this
    cases hc : c t <;> rw [hc] at this <;> try exact this.elim
    trivial

/-! ### What the records say -/

/-- What the records must say about a block of storage. -/
def shape : Option (Cell R B) → Slot R
  | none => .free
  | some x => if Body.occupied x.body then .filled x.arena else .storage x.arena

/-- A property of traces that does not depend on events other than records. -/
def Stable (Q : List (Ev R) → Prop) : Prop := ∀ t ev, isCustom ev = false → Q t → Q (t ++ [ev])

/-- The records fit the heap. -/
def Inv (Q : List (Ev R) → Prop) (t : St L A R B) : Prop :=
  (∀ p, slotAt p .object t.trace = some (shape (t.heap p))) ∧ Q t.trace

/-- They do, and there is storage without an object at `mem`. -/
def InvAt (Q : List (Ev R) → Prop) (mem : Addr) (r : R) (t : St L A R B) : Prop :=
  Inv Q t ∧ ∃ b, t.heap mem = some ⟨r, b⟩ ∧ Body.occupied b = false

/-- They do, but the construction of an object at `mem` is not recorded yet. -/
def Pend (Q : List (Ev R) → Prop) (mem : Addr) (r : R) (t : St L A R B) : Prop :=
  (∀ p, slotAt p .object t.trace = some (if p = mem then .storage r else shape (t.heap p))) ∧ Q t.trace ∧
    ∃ b, t.heap mem = some ⟨r, b⟩ ∧ Body.occupied b = true

theorem slotAt_snoc (p : Addr) (k : Part) (t : List (Ev R)) (ev : Ev R) :
    slotAt p k (t ++ [ev]) = (slotAt p k t).bind fun x => x.next p k ev := by
  simp only [slotAt, List.foldlM_append, List.foldlM_cons, List.foldlM_nil]
  cases List.foldlM (fun (x : Slot R) ev => x.next p k ev) Slot.free t with
  | none => rfl
  | some x => simp

theorem customCalls_append (c : Custom) (k : Part) (r : R) (t u : List (Ev R)) :
    customCalls c k r (t ++ u) = customCalls c k r t + customCalls c k r u := by
  induction t with
  | nil => simp [customCalls]
  | cons ev t ih =>
    cases ev <;> simp only [List.cons_append, customCalls, ih]
    omega

theorem pend_done {Q Q' : List (Ev R) → Prop} {mem : Addr} {r : R}
    (hq : ∀ t, Q t → Q' (t ++ [.custom .construct .object r mem])) (t : St L A R B) (h : Pend Q mem r t) :
    Inv Q' { t with trace := t.trace ++ [.custom .construct .object r mem] } := by
  obtain ⟨h1, h2, b, h3, h4⟩ := h
  refine ⟨fun p => ?_, hq _ h2⟩
  simp only [slotAt_snoc, h1 p, Option.bind_some]
  by_cases hp : p = mem
  · subst hp; simp [Slot.next, h3, shape, h4]
  · have : mem ≠ p := fun h => hp h.symm
    simp [Slot.next, hp, this]

/-! ### Primitives -/

variable {Q : List (Ev R) → Prop} (hQ : Stable Q)

/-- A property of the heap and the trace. -/
def Loose (I : St L A R B → Prop) : Prop := ∀ t u, u.heap = t.heap → u.trace = t.trace → I t → I u

/-- A property that does not depend on what is in a block of storage, except whether there is something. -/
def Soft (I : St L A R B → Prop) : Prop := ∀ t p r b b', I t → t.heap p = some ⟨r, b⟩ → Body.occupied b' = Body.occupied b →
  I { t with heap := upd t.heap p (some ⟨r, b'⟩) }

/-- A property that does not depend on events of the owned type. -/
def Mute (I : St L A R B → Prop) : Prop := ∀ t p how, I t → I { t with trace := t.trace ++ [.assign p how] }

theorem inv_loose : Loose (Inv Q : St L A R B → Prop) := by
  intro t u h1 h2 h
  unfold Inv; rw [h1, h2]; exact h

theorem invAt_loose {mem : Addr} {r : R} : Loose (InvAt Q mem r : St L A R B → Prop) := by
  intro t u h1 h2 h
  unfold InvAt Inv; rw [h1, h2]; exact h

theorem inv_soft : Soft (Inv Q : St L A R B → Prop) := by
  intro t p r b b' h hp ho
  refine ⟨fun q => ?_, h.2⟩
  have := h.1 q
  by_cases e : q = p
  · subst e; rw [hp] at this; simp [upd, shape, ho] at this ⊢; exact this
  · simp [upd, e]; exact this

theorem invAt_soft {mem : Addr} {r : R} : Soft (InvAt Q mem r : St L A R B → Prop) := by
  intro t p r' b b' h hp ho
  refine ⟨inv_soft t p r' b b' h.1 hp ho, ?_⟩
  obtain ⟨c, h1, h2⟩ := h.2
  by_cases e : mem = p
  · subst e
    rw [hp] at h1; cases h1
    exact ⟨b', by simp [upd], by rw [ho]; exact h2⟩
  · exact ⟨c, by simp [upd, e]; exact h1, h2⟩

include hQ in
theorem inv_ev {t : St L A R B} (h : Inv Q t) (ev : Ev R) (hc : isCustom ev = false)
    (hn : ∀ p x, Slot.next p .object x ev = some x) : Inv Q { t with trace := t.trace ++ [ev] } := by
  refine ⟨fun p => ?_, hQ _ _ hc h.2⟩
  simp only [slotAt_snoc, h.1 p, Option.bind_some, hn]

include hQ in
theorem inv_mute : Mute (Inv Q : St L A R B → Prop) := fun _ _ _ h => inv_ev hQ h _ rfl (fun _ _ => rfl)

include hQ in
theorem invAt_mute {mem : Addr} {r : R} : Mute (InvAt Q mem r : St L A R B → Prop) := fun t p how h =>
  ⟨inv_mute hQ t p how h.1, h.2⟩

theorem sim_getH (_hI : Loose I) (l : L) : Sim I (getH l) (getH l) (fun _ => I) E := by
  intro t ht
  unfold getH
  rw [show (bare t).hs l = t.hs l from rfl]
  cases t.hs l with
  | none => trivial
  | some k => exact ⟨rfl, rfl, ht⟩

theorem sim_setP (hI : Loose I) (l : L) (p : Option Addr) : Sim I (setP l p) (setP l p) (fun _ => I) E := by
  intro t ht
  unfold setP
  rw [show (bare t).hs l = t.hs l from rfl]
  cases t.hs l with
  | none => trivial
  | some k => exact ⟨rfl, rfl, hI t _ rfl rfl ht⟩

theorem sim_setAlloc (hI : Loose I) (l : L) (a : A) : Sim I (setAlloc l a) (setAlloc l a) (fun _ => I) E := by
  intro t ht
  unfold setAlloc
  rw [show (bare t).hs l = t.hs l from rfl]
  cases t.hs l with
  | none => trivial
  | some k => exact ⟨rfl, rfl, hI t _ rfl rfl ht⟩

theorem sim_emplace (hI : Loose I) (l : L) (k : Handle A) : Sim I (emplace l k) (emplace l k) (fun _ => I) E := by
  intro t ht
  unfold emplace
  rw [show (bare t).hs l = t.hs l from rfl]
  cases t.hs l with
  | none => exact ⟨rfl, rfl, hI t _ rfl rfl ht⟩
  | some k => trivial

theorem sim_endLife (hI : Loose I) (l : L) : Sim I (endLife l) (endLife l) (fun _ => I) E := by
  intro t ht
  unfold endLife
  rw [show (bare t).hs l = t.hs l from rfl]
  cases t.hs l with
  | none => trivial
  | some k => exact ⟨rfl, rfl, hI t _ rfl rfl ht⟩

theorem sim_choose (hI : Loose I) : Sim I choose choose (fun _ => I) E :=
  fun t ht => ⟨rfl, rfl, hI t _ rfl rfl ht⟩

theorem sim_readBody (p : Addr) : Sim I (readBody p) (readBody p) (fun b t => I t ∧ ∃ r, t.heap p = some ⟨r, b⟩) E := by
  intro t ht
  unfold readBody
  rw [show (bare t).heap p = t.heap p from rfl]
  cases h : t.heap p with
  | none => trivial
  | some x => exact ⟨rfl, rfl, ht, x.arena, h⟩

/-- Overwrite what is in a block. -/
theorem sim_writeBody (hI : Soft I) (p : Addr) (b' : B) :
    Sim (fun t => I t ∧ ∃ r b, t.heap p = some ⟨r, b⟩ ∧ Body.occupied b' = Body.occupied b) (writeBody p b') (writeBody p b')
      (fun _ => I) E := by
  intro t ⟨ht, r, b, hp, ho⟩
  unfold writeBody
  rw [show (bare t).heap p = t.heap p from rfl, hp]
  exact ⟨rfl, rfl, hI t p r b b' ht hp ho⟩

theorem sim_assigned (hI : Mute I) (p : Addr) (how : How) : Sim I (emit (.assign p how)) (emit (.assign p how)) (fun _ => I) E :=
  fun t ht => ⟨rfl, by simp [bare, isCustom], hI _ _ _ ht⟩

include hQ in
theorem sim_allocate (hraw : Body.occupied (Body.raw : B) = false) (r : R) : Sim (Inv Q : St L A R B → Prop) (allocate r) (allocate r) (fun p => InvAt Q p r) (Inv Q) := by
  intro t ht
  unfold allocate
  rw [show (bare t).env = t.env from rfl, show (bare t).ai = t.ai from rfl]
  dsimp only
  rw [show (bare t).heap = t.heap from rfl]
  cases t.env.fail t.ai with
  | true => exact ⟨rfl, rfl, inv_loose t _ rfl rfl ht⟩
  | false =>
    simp only [Bool.false_eq_true, if_false]
    cases hp : t.heap (t.env.pick t.ai) with
    | some x => exact ⟨rfl, rfl, inv_loose t _ rfl rfl ht⟩
    | none =>
      refine ⟨rfl, by simp [bare, isCustom], ⟨fun q => ?_, hQ _ _ rfl ht.2⟩, Body.raw, by simp [upd], ?_⟩
      · have := ht.1 q
        simp only [slotAt_snoc, this, Option.bind_some, Slot.next]
        by_cases e : t.env.pick t.ai = q
        · subst e; simp [hp, upd, shape, hraw]
        · have e' : q ≠ t.env.pick t.ai := fun h => e h.symm
          simp [e, upd, e']
      · exact hraw

include hQ in
theorem sim_deallocate (r : R) (p : Addr) : Sim (Inv Q : St L A R B → Prop) (deallocate r p) (deallocate r p) (fun _ => Inv Q) E := by
  intro t ht
  unfold deallocate
  rw [show (bare t).heap p = t.heap p from rfl]
  cases hp : t.heap p with
  | none => trivial
  | some x =>
    simp only
    by_cases h1 : x.arena ≠ r
    · rw [if_pos h1, if_pos h1]; trivial
    · rw [if_neg h1, if_neg h1]
      cases h2 : Body.occupied x.body with
      | true => simp only [if_true]; trivial
      | false =>
        simp only [Bool.false_eq_true, if_false]
        refine ⟨rfl, by simp [bare, isCustom], fun q => ?_, hQ _ _ rfl ht.2⟩
        have := ht.1 q
        simp only [slotAt_snoc, this, Option.bind_some, Slot.next]
        by_cases e : p = q
        · subst e; simp [hp, upd, shape, h2, Decidable.not_not.1 h1]
        · have e' : q ≠ p := fun h => e h.symm
          simp [e, upd, e']

/-- The object at `p` is destroyed, its destruction is recorded (`done`) or not; in storage of resource `r` if it is deallocated next. -/
def Drop (Q : List (Ev R) → Prop) (p : Addr) (r : R) (done : Bool) (t : St L A R B) : Prop :=
  ∃ r0 b, t.heap p = some ⟨r0, b⟩ ∧ Body.occupied b = false ∧
    (r0 = r → (∀ q, slotAt q .object t.trace = some (if q = p then (if done then .emptied r else .filled r) else shape (t.heap q))) ∧
      Q t.trace)

theorem drop_done {p : Addr} {r : R} (hq : ∀ t, Q t → Q (t ++ [.custom .destroy .object r p])) (t : St L A R B) (h : Drop Q p r false t) :
    Drop Q p r true { t with trace := t.trace ++ [.custom .destroy .object r p] } := by
  obtain ⟨r0, b, h1, h2, h3⟩ := h
  refine ⟨r0, b, h1, h2, fun e => ⟨fun q => ?_, hq _ (h3 e).2⟩⟩
  have := (h3 e).1 q
  simp only [slotAt_snoc, this, Option.bind_some, Slot.next]
  by_cases e : q = p
  · subst e; simp
  · have e' : p ≠ q := fun h => e h.symm
    simp [e, e']

include hQ in
theorem sim_drop (r : R) (p : Addr) :
    Sim (Drop Q p r true : St L A R B → Prop) (deallocate r p) (deallocate r p) (fun _ => Inv Q) E := by
  intro t ⟨r0, b, hp, hb, ht⟩
  unfold deallocate
  rw [show (bare t).heap p = t.heap p from rfl, hp]
  simp only
  by_cases h1 : r0 ≠ r
  · rw [if_pos h1, if_pos h1]; trivial
  · rw [if_neg h1, if_neg h1]
    simp only [hb, Bool.false_eq_true, if_false]
    obtain ⟨ht, hq⟩ := ht (Decidable.not_not.1 h1)
    refine ⟨rfl, by simp [bare, isCustom], fun q => ?_, hQ _ _ rfl hq⟩
    have := ht q
    simp only [slotAt_snoc, this, Option.bind_some, Slot.next]
    by_cases e : p = q
    · subst e; simp [upd, shape]
    · have e' : q ≠ p := fun h => e h.symm
      simp [e, upd, e']

end

/-! ### `indirect` -/

section
variable {L A R V X : Type} [DecidableEq L] [DecidableEq R] {I : St L A R (Obj V) → Prop} {E : St L A R (Obj V) → Prop}
variable {Q Q' : List (Ev R) → Prop}

theorem sim_readObj (p : Addr) : Sim I (readObj p) (readObj p) (fun v t => I t ∧ ∃ r, t.heap p = some ⟨r, some v⟩) E := by
  unfold readObj
  refine sim_bind (sim_readBody p) fun b => ?_
  cases b with
  | none => exact sim_undef _
  | some v => exact sim_pure _ fun _ h => h

theorem sim_readObj' (p : Addr) : Sim I (readObj p) (readObj p) (fun _ => I) E :=
  sim_mono (sim_readObj p) (fun _ h => h) (fun _ _ h => h.1) (fun _ h => h)

theorem sim_writeObj (hI : Soft I) (p : Addr) (v : V) : Sim I (writeObj p v) (writeObj p v) (fun _ => I) E := by
  unfold writeObj
  refine sim_bind (sim_readObj p) fun w => ?_
  exact sim_mono (sim_writeBody hI p (some v)) (fun t h => ⟨h.1, by obtain ⟨r, hr⟩ := h.2; exact ⟨r, some w, hr, rfl⟩⟩)
    (fun _ _ h => h) (fun _ h => h)

theorem sim_finish (hQ : Stable Q) (mem : Addr) (r : R) (how : How) (v : Except Exn V) :
    Sim (InvAt Q mem r : St L A R (Obj V) → Prop) (finish mem how v) (finish mem how v) (fun _ => Pend Q mem r) (Inv Q) := by
  cases v with
  | error e => exact sim_throwE _ fun _ h => h.1
  | ok v =>
    intro t ⟨ht, b, hp, hb⟩
    show Agree _ _ (beginObj mem v how t) (beginObj mem v how (bare t))
    unfold beginObj
    rw [show (bare t).heap mem = t.heap mem from rfl, hp]
    cases b with
    | some w => trivial
    | none =>
      refine ⟨rfl, by simp [bare, isCustom], fun q => ?_, hQ _ _ rfl ht.2, some v, by simp [upd], rfl⟩
      have := ht.1 q
      simp only [slotAt_snoc, this, Option.bind_some, Slot.next]
      by_cases e : q = mem
      · subst e; simp [hp, shape, Body.occupied]
      · simp [e, upd]

theorem sim_endObj (hQ : Stable Q) (p : Addr) (r : R) :
    Sim (Inv Q : St L A R (Obj V) → Prop) (endObj p) (endObj p) (fun _ => Drop Q p r false) E := by
  intro t ht
  unfold endObj readObj
  simp only [M.bind_eq, readBody, writeBody, emit]
  rw [show (bare t).heap p = t.heap p from rfl]
  cases hp : t.heap p with
  | none => trivial
  | some x =>
    rcases x with ⟨r0, _ | v⟩
    · trivial
    · simp only [M.pure_eq, hp, show (bare t).heap p = t.heap p from rfl]
      refine ⟨rfl, by simp [bare, isCustom], r0, none, by simp [upd], rfl, ?_⟩
      rintro rfl
      refine ⟨fun q => ?_, hQ _ _ rfl ht.2⟩
      have := ht.1 q
      simp only [slotAt_snoc, this, Option.bind_some, Slot.next]
      by_cases e : q = p
      · subst e; simp [hp, shape, Body.occupied]
      · simp [e, upd]

variable {tr : ATraits A R} {T : TSpec V X}

/-- What the records of `construct` do to `Q`. -/
def Makes (Q Q' : List (Ev R) → Prop) : Prop := ∀ r p t, Q t → Q' (t ++ [.custom .construct .object r p])

/-- What the records of `destroy` do to `Q`. -/
def Drops (Q : List (Ev R) → Prop) : Prop := ∀ r p t, Q t → Q (t ++ [.custom .destroy .object r p])

theorem sim_make (hQ : Stable Q) (hm : Makes Q Q') (a : A) (mem : Addr) (xs : TArgs X) :
    Sim (InvAt Q mem (tr.res a) : St L A R (Obj V) → Prop) ((counting tr (plain T)).make a mem xs) ((plain T).make a mem xs)
      (fun _ => Inv Q') (Inv Q) := by
  refine sim_record (J := fun _ => Pend Q mem (tr.res a)) ?_ _ _ _ _ (pend_done (hm _ _))
  exact sim_bind (sim_choose invAt_loose) fun c => sim_finish hQ _ _ _ _

theorem sim_copyCtor (hQ : Stable Q) (hm : Makes Q Q') (a : A) (mem q : Addr) :
    Sim (InvAt Q mem (tr.res a) : St L A R (Obj V) → Prop) ((counting tr (plain T)).copyCtor a mem q) ((plain T).copyCtor a mem q)
      (fun _ => Inv Q') (Inv Q) := by
  refine sim_record (J := fun _ => Pend Q mem (tr.res a)) ?_ _ _ _ _ (pend_done (hm _ _))
  exact sim_bind (sim_readObj' _) fun v => sim_bind (sim_choose invAt_loose) fun c => sim_finish hQ _ _ _ _

theorem sim_moveCtor (hQ : Stable Q) (hm : Makes Q Q') (a : A) (mem q : Addr) :
    Sim (InvAt Q mem (tr.res a) : St L A R (Obj V) → Prop) ((counting tr (plain T)).moveCtor a mem q) ((plain T).moveCtor a mem q)
      (fun _ => Inv Q') (Inv Q) := by
  refine sim_record (J := fun _ => Pend Q mem (tr.res a)) ?_ _ _ _ _ (pend_done (hm _ _))
  exact sim_bind (sim_readObj' _) fun v => sim_bind (sim_choose invAt_loose) fun c =>
    sim_bind (sim_writeObj invAt_soft _ _) fun _ => sim_finish hQ _ _ _ _

theorem sim_makeFwd (hQ : Stable Q) (hm : Makes Q Q') (a : A) (mem : Addr) (u : Fwd X) :
    Sim (InvAt Q mem (tr.res a) : St L A R (Obj V) → Prop) ((counting tr (plain T)).makeFwd a mem u) ((plain T).makeFwd a mem u)
      (fun _ => Inv Q') (Inv Q) := by
  cases u with
  | arg x => exact sim_make hQ hm a mem _
  | lval q => exact sim_copyCtor hQ hm a mem q
  | rval q => exact sim_moveCtor hQ hm a mem q

theorem sim_rethrow (x : Option Exn) (h : ∀ t, I t → E t) : Sim I (rethrow x) (rethrow x) (fun _ => I) E := by
  cases x with
  | none => exact sim_pure _ fun _ h => h
  | some e => exact sim_throwE _ h

theorem sim_copyAssign (hQ : Stable Q) (d q : Addr) :
    Sim (Inv Q : St L A R (Obj V) → Prop) ((counting tr (plain T)).copyAssign d q) ((plain T).copyAssign d q) (fun _ => Inv Q) (Inv Q) :=
  sim_bind (sim_readObj' _) fun _ => sim_bind (sim_readObj' _) fun _ => sim_bind (sim_choose inv_loose) fun _ =>
    sim_bind (sim_assigned (inv_mute hQ) _ _) fun _ => sim_bind (sim_writeObj inv_soft _ _) fun _ => sim_rethrow _ fun _ h => h

theorem sim_moveAssign (hQ : Stable Q) (d q : Addr) :
    Sim (Inv Q : St L A R (Obj V) → Prop) ((counting tr (plain T)).moveAssign d q) ((plain T).moveAssign d q) (fun _ => Inv Q) (Inv Q) :=
  sim_bind (sim_readObj' _) fun _ => sim_bind (sim_readObj' _) fun _ => sim_bind (sim_choose inv_loose) fun _ =>
    sim_bind (sim_assigned (inv_mute hQ) _ _) fun _ => sim_bind (sim_writeObj inv_soft _ _) fun _ =>
      sim_bind (sim_writeObj inv_soft _ _) fun _ => sim_rethrow _ fun _ h => h

theorem sim_assignArg (hQ : Stable Q) (d : Addr) (x : X) :
    Sim (Inv Q : St L A R (Obj V) → Prop) ((counting tr (plain T)).assignArg d x) ((plain T).assignArg d x) (fun _ => Inv Q) (Inv Q) :=
  sim_bind (sim_readObj' _) fun _ => sim_bind (sim_choose inv_loose) fun _ =>
    sim_bind (sim_assigned (inv_mute hQ) _ _) fun _ => sim_bind (sim_writeObj inv_soft _ _) fun _ => sim_rethrow _ fun _ h => h

theorem sim_assignFwd (hQ : Stable Q) (d : Addr) (u : Fwd X) :
    Sim (Inv Q : St L A R (Obj V) → Prop) ((counting tr (plain T)).assignFwd d u) ((plain T).assignFwd d u) (fun _ => Inv Q) (Inv Q) := by
  cases u with
  | arg x => exact sim_assignArg hQ d x
  | lval q => exact sim_copyAssign hQ d q
  | rval q => exact sim_moveAssign hQ d q

open Indirect

/-- `k` with records does what `k'` does without, in fresh storage. -/
def SimK (tr : ATraits A R) (Q Q' : List (Ev R) → Prop) (k k' : A → Addr → M (St L A R (Obj V)) Unit) : Prop :=
  ∀ a mem, Sim (InvAt Q mem (tr.res a)) (k a mem) (k' a mem) (fun _ => Inv Q') (Inv Q)

theorem sim_constructFrom (hQ : Stable Q) (a : A) {k k' : A → Addr → M (St L A R (Obj V)) Unit} (hk : SimK tr Q Q k k') :
    Sim (Inv Q) (constructFrom tr a k) (constructFrom tr a k') (fun _ => Inv Q) (Inv Q) := by
  unfold constructFrom
  refine sim_bind (sim_allocate hQ rfl _) fun mem => sim_bind (sim_onThrow (hk a mem) (sim_deallocate hQ _ _)) fun _ => ?_
  exact sim_pure _ fun _ h => h

theorem sim_destroyWith (hQ : Stable Q) (hd : Drops Q) (a : A) (p : Addr) :
    Sim (Inv Q : St L A R (Obj V) → Prop) (destroyWith tr (counting tr (plain T)) a p) (destroyWith tr (plain T) a p) (fun _ => Inv Q) E := by
  unfold destroyWith
  refine sim_bind (J := fun _ => Drop Q p (tr.res a) true) ?_ fun _ => sim_drop hQ _ _
  exact sim_record (sim_endObj hQ p (tr.res a)) _ _ _ _ (drop_done (hd _ _))

theorem sim_valueless (x : L) : Sim (Inv Q : St L A R (Obj V) → Prop) (valueless x) (valueless x) (fun _ => Inv Q) E :=
  sim_bind (sim_getH inv_loose x) fun _ => sim_pure _ fun _ h => h

theorem sim_getAllocator (x : L) : Sim (Inv Q : St L A R (Obj V) → Prop) (getAllocator x) (getAllocator x) (fun _ => Inv Q) E :=
  sim_bind (sim_getH inv_loose x) fun _ => sim_pure _ fun _ h => h

theorem sim_deref (x : L) : Sim (Inv Q : St L A R (Obj V) → Prop) (deref x) (deref x) (fun _ => Inv Q) E :=
  sim_bind (sim_getH inv_loose x) fun h => by
    rcases h with ⟨_ | p, a⟩
    · exact sim_undef _
    · exact sim_pure _ fun _ h => h

theorem sim_arrow (x : L) : Sim (Inv Q : St L A R (Obj V) → Prop) (arrow x) (arrow x) (fun _ => Inv Q) E := sim_deref x

theorem sim_reset (hQ : Stable Q) (hd : Drops Q) (x : L) :
    Sim (Inv Q : St L A R (Obj V) → Prop) (reset tr (counting tr (plain T)) x) (reset tr (plain T) x) (fun _ => Inv Q) E := by
  unfold reset
  refine sim_noexcept (sim_bind (sim_getH inv_loose x) fun h => ?_)
  rcases h with ⟨_ | p, a⟩
  · exact sim_pure _ fun _ h => h
  · exact sim_bind (sim_destroyWith hQ hd a p) fun _ => sim_setP inv_loose x none

theorem sim_evalSrc (u : Src L X) : Sim (Inv Q : St L A R (Obj V) → Prop) (evalSrc u) (evalSrc u) (fun _ => Inv Q) E := by
  cases u with
  | arg x => exact sim_pure _ fun _ h => h
  | lval y => exact sim_bind (sim_deref y) fun _ => sim_pure _ fun _ h => h
  | rval y => exact sim_bind (sim_deref y) fun _ => sim_pure _ fun _ h => h

theorem sim_with (hQ : Stable Q) (a : A) {k k' : A → Addr → M (St L A R (Obj V)) Unit} (hk : SimK tr Q Q k k') :
    Sim (Inv Q) (do let p ← constructFrom tr a k; pure (⟨some p, a⟩ : Handle A)) (do let p ← constructFrom tr a k'; pure ⟨some p, a⟩)
      (fun _ => Inv Q) (Inv Q) :=
  sim_bind (sim_constructFrom hQ a hk) fun _ => sim_pure _ fun _ h => h

theorem sim_construct (hQ : Stable Q) (hm : Makes Q Q) (a : Option A) (c : Ctor L X) :
    Sim (Inv Q : St L A R (Obj V) → Prop) (construct tr (counting tr (plain T)) a c) (construct tr (plain T) a c)
      (fun _ => Inv Q) (Inv Q) := by
  have mk : ∀ xs, SimK (L := L) tr Q Q (fun a m => (counting tr (plain T)).make a m xs) (fun a m => (plain T).make a m xs) :=
    fun xs a m => sim_make hQ hm a m xs
  have fw : ∀ u, SimK (L := L) tr Q Q (fun a m => (counting tr (plain T)).makeFwd a m u) (fun a m => (plain T).makeFwd a m u) :=
    fun u a m => sim_makeFwd hQ hm a m u
  cases a <;> cases c
  · exact sim_with hQ _ (mk _)
  · exact sim_bind (sim_evalSrc _) fun _ => sim_with hQ _ (fw _)
  · exact sim_with hQ _ (mk _)
  · exact sim_bind (sim_evalSrc _) fun _ => sim_with hQ _ (fw _)
  · exact sim_with hQ _ (mk _)
  · exact sim_with hQ _ (mk _)
  · exact sim_bind (sim_evalSrc _) fun _ => sim_with hQ _ (fw _)
  · exact sim_with hQ _ (mk _)
  · exact sim_bind (sim_evalSrc _) fun _ => sim_with hQ _ (fw _)
  · exact sim_with hQ _ (mk _)

theorem sim_ctorCopyA (hQ : Stable Q) (hm : Makes Q Q) (a : A) (y : L) :
    Sim (Inv Q : St L A R (Obj V) → Prop) (ctorCopyA tr (counting tr (plain T)) a y) (ctorCopyA tr (plain T) a y)
      (fun _ => Inv Q) (Inv Q) := by
  refine sim_bind (sim_valueless y) fun b => sim_ite (sim_pure _ fun _ h => h) ?_
  exact sim_bind (sim_deref y) fun q => sim_with hQ _ fun a m => sim_copyCtor hQ hm a m q

theorem sim_ctorCopy (hQ : Stable Q) (hm : Makes Q Q) (y : L) :
    Sim (Inv Q : St L A R (Obj V) → Prop) (ctorCopy tr (counting tr (plain T)) y) (ctorCopy tr (plain T) y) (fun _ => Inv Q) (Inv Q) :=
  sim_bind (sim_getH inv_loose y) fun _ => sim_ctorCopyA hQ hm _ y

theorem sim_ctorMoveA (hQ : Stable Q) (hm : Makes Q Q) (a : A) (y : L) :
    Sim (Inv Q : St L A R (Obj V) → Prop) (ctorMoveA tr (counting tr (plain T)) a y) (ctorMoveA tr (plain T) a y)
      (fun _ => Inv Q) (Inv Q) := by
  refine sim_noexcept (sim_bind (sim_getH inv_loose y) fun o => ?_)
  refine sim_ite (sim_bind (sim_setP inv_loose y none) fun _ => sim_pure _ fun _ h => h) ?_
  refine sim_ite (sim_bind (sim_setP inv_loose y none) fun _ => sim_pure _ fun _ h => h) ?_
  refine sim_bind (sim_valueless y) fun b => sim_ite ?_ (sim_pure _ fun _ h => h)
  exact sim_bind (sim_deref y) fun q => sim_with hQ _ fun a m => sim_moveCtor hQ hm a m q

theorem sim_ctorMove (hQ : Stable Q) (hm : Makes Q Q) (y : L) :
    Sim (Inv Q : St L A R (Obj V) → Prop) (ctorMove tr (counting tr (plain T)) y) (ctorMove tr (plain T) y) (fun _ => Inv Q) (Inv Q) :=
  sim_noexcept (sim_bind (sim_getH inv_loose y) fun _ => sim_ctorMoveA hQ hm _ y)

theorem sim_dtor (hQ : Stable Q) (hd : Drops Q) (x : L) :
    Sim (Inv Q : St L A R (Obj V) → Prop) (dtor tr (counting tr (plain T)) x) (dtor tr (plain T) x) (fun _ => Inv Q) E :=
  sim_noexcept (sim_bind (sim_reset hQ hd x) fun _ => sim_endLife inv_loose x)

/-- The last lines of both assignments. -/
theorem sim_propagate (b : Bool) (x y : L) {f : M (St L A R (Obj V)) L} (hf : Sim (Inv Q) f f (fun _ => Inv Q) (Inv Q)) :
    Sim (Inv Q : St L A R (Obj V) → Prop) (if b = true then (do let o ← getH y; setAlloc x o.alloc; f) else f)
      (if b = true then (do let o ← getH y; setAlloc x o.alloc; f) else f) (fun _ => Inv Q) (Inv Q) :=
  sim_ite (sim_bind (sim_getH inv_loose y) fun _ => sim_bind (sim_setAlloc inv_loose x _) fun _ => hf) hf

theorem sim_assignCopy (hQ : Stable Q) (hm : Makes Q Q) (hd : Drops Q) (x y : L) :
    Sim (Inv Q : St L A R (Obj V) → Prop) (assignCopy tr (counting tr (plain T)) x y) (assignCopy tr (plain T) x y)
      (fun _ => Inv Q) (Inv Q) := by
  have hp := sim_propagate (Q := Q) tr.pocca x y (f := (pure x : M (St L A R (Obj V)) L)) (sim_pure _ fun _ h => h)
  refine sim_ite (sim_pure _ fun _ h => h) (sim_bind (sim_valueless y) fun b => ?_)
  refine sim_ite (sim_bind (sim_reset hQ hd x) fun _ => hp) ?_
  refine sim_bind (sim_getH inv_loose x) fun t => sim_bind (sim_getH inv_loose y) fun o => ?_
  refine sim_ite ?_ ?_
  · exact sim_bind (sim_deref x) fun d => sim_bind (sim_deref y) fun q => sim_bind (sim_copyAssign hQ d q) fun _ => hp
  · exact sim_bind (sim_deref y) fun q =>
      sim_bind (sim_constructFrom hQ _ fun a m => sim_copyCtor hQ hm a m q) fun p =>
        sim_bind (sim_reset hQ hd x) fun _ => sim_bind (sim_setP inv_loose x _) fun _ => hp

theorem sim_assignMove (hQ : Stable Q) (hm : Makes Q Q) (hd : Drops Q) (x y : L) :
    Sim (Inv Q : St L A R (Obj V) → Prop) (assignMove tr (counting tr (plain T)) x y) (assignMove tr (plain T) x y)
      (fun _ => Inv Q) (Inv Q) := by
  have hp := sim_propagate (Q := Q) tr.pocma x y (f := (pure x : M (St L A R (Obj V)) L)) (sim_pure _ fun _ h => h)
  refine sim_noexcept (sim_ite (sim_pure _ fun _ h => h) (sim_bind (sim_valueless y) fun b => ?_))
  refine sim_ite (sim_bind (sim_reset hQ hd x) fun _ => hp) ?_
  refine sim_bind (sim_getH inv_loose x) fun t => sim_bind (sim_getH inv_loose y) fun o => ?_
  refine sim_ite ?_ ?_
  · exact sim_bind (sim_setP inv_loose x _) fun _ => sim_bind (sim_setP inv_loose y _) fun _ => sim_bind (sim_reset hQ hd y) fun _ => hp
  · exact sim_bind (sim_deref y) fun q =>
      sim_bind (sim_constructFrom hQ _ fun a m => sim_moveCtor hQ hm a m q) fun p =>
        sim_bind (sim_reset hQ hd x) fun _ => sim_bind (sim_setP inv_loose x _) fun _ => hp

theorem sim_assignFrom (hQ : Stable Q) (hm : Makes Q Q) (x : L) (u : Fwd X) :
    Sim (Inv Q : St L A R (Obj V) → Prop) (assignFrom tr (counting tr (plain T)) x u) (assignFrom tr (plain T) x u)
      (fun _ => Inv Q) (Inv Q) := by
  refine sim_bind (sim_valueless x) fun b => sim_ite ?_ ?_
  · exact sim_bind (sim_getH inv_loose x) fun t => sim_bind (sim_constructFrom hQ _ fun a m => sim_makeFwd hQ hm a m u) fun p =>
      sim_bind (sim_setP inv_loose x _) fun _ => sim_pure _ fun _ h => h
  · exact sim_bind (sim_deref x) fun d => sim_bind (sim_assignFwd hQ d u) fun _ => sim_pure _ fun _ h => h

theorem sim_swap (x y : L) : Sim (Inv Q : St L A R (Obj V) → Prop) (swap tr x y) (swap tr x y) (fun _ => Inv Q) (Inv Q) := by
  refine sim_noexcept (sim_bind (sim_getH inv_loose x) fun t => sim_bind (sim_getH inv_loose y) fun o => ?_)
  refine sim_ite ?_ (sim_ite ?_ (sim_undef _))
  · exact sim_bind (sim_setAlloc inv_loose x _) fun _ => sim_bind (sim_setAlloc inv_loose y _) fun _ =>
      sim_bind (sim_setP inv_loose x _) fun _ => sim_setP inv_loose y _
  · exact sim_bind (sim_setP inv_loose x _) fun _ => sim_setP inv_loose y _

theorem sim_istep (hQ : Stable Q) (hm : Makes Q Q) (hd : Drops Q) (o : Op L A V X) :
    Sim (Inv Q : St L A R (Obj V) → Prop) (step tr (counting tr (plain T)) o) (step tr (plain T) o) (fun _ => Inv Q) (Inv Q) := by
  have fin : ∀ {α : Type} (a : α), Sim (Inv Q : St L A R (Obj V) → Prop) (pure a) (pure a) (fun _ => Inv Q) (Inv Q) :=
    fun a => sim_pure a fun _ h => h
  cases o with
  | make x a c => exact sim_bind (sim_construct hQ hm a c) fun _ => sim_bind (sim_emplace inv_loose x _) fun _ => fin _
  | copy x y => exact sim_bind (sim_ctorCopy hQ hm y) fun _ => sim_bind (sim_emplace inv_loose x _) fun _ => fin _
  | copyA x a y => exact sim_bind (sim_ctorCopyA hQ hm a y) fun _ => sim_bind (sim_emplace inv_loose x _) fun _ => fin _
  | move x y => exact sim_bind (sim_ctorMove hQ hm y) fun _ => sim_bind (sim_emplace inv_loose x _) fun _ => fin _
  | moveA x a y => exact sim_bind (sim_ctorMoveA hQ hm a y) fun _ => sim_bind (sim_emplace inv_loose x _) fun _ => fin _
  | destroy x => exact sim_bind (sim_dtor hQ hd x) fun _ => fin _
  | assignCopy x y => exact sim_bind (sim_assignCopy hQ hm hd x y) fun _ => fin _
  | assignMove x y => exact sim_bind (sim_assignMove hQ hm hd x y) fun _ => fin _
  | assignFrom x u => exact sim_bind (sim_evalSrc u) fun _ => sim_bind (sim_assignFrom hQ hm x _) fun _ => fin _
  | deref x => exact sim_bind (sim_deref x) fun _ => sim_bind (sim_readObj' _) fun _ => fin _
  | arrow x => exact sim_bind (sim_arrow x) fun _ => sim_bind (sim_readObj' _) fun _ => fin _
  | modify x f => exact sim_bind (sim_deref x) fun _ => sim_bind (sim_readObj' _) fun _ => sim_bind (sim_writeObj inv_soft _ _) fun _ => fin _
  | valueless x => exact sim_bind (sim_valueless x) fun _ => fin _
  | getAllocator x => exact sim_bind (sim_getAllocator x) fun _ => fin _
  | swap x y => exact sim_bind (sim_swap x y) fun _ => fin _
  | friendSwap x y => exact sim_bind (sim_noexcept (sim_swap x y)) fun _ => fin _

end
end Counted
end Verif
