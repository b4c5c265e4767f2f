import Verif.PolyNode
import Verif.Proofs.Det
import Verif.Proofs.PolySim

/-!
Simulation for owned types with operations that recurse: a `polymorphic` behaves as an `indirect` whose owned type has
pairs of a dynamic type and a value.  Unlike in `Verif/Proofs/PolySim.lean` nothing is assumed about the pointers, so that
undefined behaviour corresponds, too - up to the environment, because `polymorphic` reads the control block before it
allocates, and `indirect` reads the object afterwards.
-/

set_option autoImplicit false
set_option linter.unusedSectionVars false
set_option linter.unusedSimpArgs false

namespace Verif
namespace PNode
open Verif Verif.Polymorphic

section
variable {L A R Ty V X : Type} [DecidableEq L] [DecidableEq R] [DecidableEq Ty]

/-- Control blocks are complete, `p_` points to the own object or nowhere, and there is free storage. -/
structure GoodN (s : St L A R (PBody Ty V)) : Prop where
  good : Good s
  ptr : ∀ p r c, s.heap p = some ⟨r, some c⟩ → c.p = none ∨ c.p = some p
  fin : ∃ n, ∀ p, n ≤ p → s.heap p = none

/-- Control blocks without an object are as before. -/
def Kept (s t : St L A R (PBody Ty V)) : Prop :=
  ∀ p r ty pp, s.heap p = some ⟨r, some ⟨ty, pp, none⟩⟩ → t.heap p = some ⟨r, some ⟨ty, pp, none⟩⟩

theorem Kept.refl (s : St L A R (PBody Ty V)) : Kept s s := fun _ _ _ _ h => h

theorem Kept.trans {s t u : St L A R (PBody Ty V)} (h : Kept s t) (h' : Kept t u) : Kept s u :=
  fun p r ty pp e => h' p r ty pp (h p r ty pp e)

theorem Kept.of_heap {s t : St L A R (PBody Ty V)} (h : t.heap = s.heap) : Kept s t :=
  fun p r ty pp e => by rw [h]; exact e

/-- In some environment with the same past the computation has no result. -/
def Bad {α B : Type} (m : M (St L A R B) α) (w : St L A R B) : Prop :=
  ∃ e, w.env.Agree e w.ai w.ti ∧ ((∃ u, m (w.inEnv e) = .ub u) ∨ m (w.inEnv e) = .diverged)

/-- Corresponding computations in corresponding states. -/
def RS {α : Type} (m : M (St L A R (PBody Ty V)) α) (m' : M (St L A R (Obj (Ty × V))) α)
    (s : St L A R (PBody Ty V)) : Prop :=
  match m s with
  | .ok a t => GoodN t ∧ Kept s t ∧ m' (view s) = .ok a (view t)
  | .threw e t => GoodN t ∧ Kept s t ∧ m' (view s) = .threw e (view t)
  | .terminated => m' (view s) = .terminated
  | .ub _ => Bad m' (view s)
  | .diverged => m' (view s) = .diverged

section
variable {α β γ B : Type} {s t : St L A R (PBody Ty V)}

theorem Bad.here {m : M (St L A R B) α} {w : St L A R B} (h : (∃ u, m w = .ub u) ∨ m w = .diverged) : Bad m w :=
  ⟨w.env, Env.Agree.refl _ _ _, h⟩

theorem Bad.bind_left {m : M (St L A R B) α} {f : α → M (St L A R B) β} {w : St L A R B} (h : Bad m w) :
    Bad (m >>= f) w := by
  obtain ⟨e, h1, h2⟩ := h
  refine ⟨e, h1, ?_⟩
  rw [M.bind_eq]
  rcases h2 with ⟨u, h⟩ | h <;> rw [h]
  · exact Or.inl ⟨_, rfl⟩
  · exact Or.inr rfl

theorem Bad.bind_right {m : M (St L A R B) α} {f : α → M (St L A R B) β} {w w' : St L A R B} {a : α} (d : Det m)
    (h : m w = .ok a w') (hf : Bad (f a) w') : Bad (m >>= f) w := by
  obtain ⟨e, h1, h2⟩ := hf
  obtain ⟨l, h3⟩ := d.ok h
  rw [l.1] at h1
  refine ⟨e, h1.mono l.2.1 l.2.2, ?_⟩
  rw [M.bind_ok (h3 e h1)]
  exact h2

theorem Bad.noexceptIf {m : M (St L A R B) α} {b : Bool} {w : St L A R B} (h : Bad m w) :
    Bad (M.noexceptIf b m) w := by
  obtain ⟨e, h1, h2⟩ := h
  refine ⟨e, h1, ?_⟩
  unfold M.noexceptIf
  rcases h2 with ⟨u, h⟩ | h <;> rw [h]
  · exact Or.inl ⟨_, rfl⟩
  · exact Or.inr rfl

theorem Bad.onThrow_left {m : M (St L A R B) α} {c : M (St L A R B) Unit} {w : St L A R B} (h : Bad m w) :
    Bad (M.onThrow m c) w := by
  obtain ⟨e, h1, h2⟩ := h
  refine ⟨e, h1, ?_⟩
  unfold M.onThrow
  rcases h2 with ⟨u, h⟩ | h <;> rw [h]
  · exact Or.inl ⟨_, rfl⟩
  · exact Or.inr rfl

theorem Bad.onThrow_right {m : M (St L A R B) α} {c : M (St L A R B) Unit} {w w' : St L A R B} {x : Exn} (d : Det m)
    (h : m w = .threw x w') (hc : Bad c w') : Bad (M.onThrow m c) w := by
  obtain ⟨e, h1, h2⟩ := hc
  obtain ⟨l, h3⟩ := d.threw h
  rw [l.1] at h1
  refine ⟨e, h1.mono l.2.1 l.2.2, ?_⟩
  unfold M.onThrow
  rw [h3 e h1]
  simp only
  rcases h2 with ⟨u, h⟩ | h <;> rw [h]
  · exact Or.inl ⟨_, rfl⟩
  · exact Or.inr rfl

theorem RS.ok {m : M (St L A R (PBody Ty V)) α} {m' : M (St L A R (Obj (Ty × V))) α} (h : RS m m' s) {a : α}
    (e : m s = .ok a t) : GoodN t ∧ Kept s t ∧ m' (view s) = .ok a (view t) := by
  unfold RS at h; rw [e] at h; exact h

theorem RS.bind {m : M (St L A R (PBody Ty V)) α} {m' : M (St L A R (Obj (Ty × V))) α}
    {f : α → M (St L A R (PBody Ty V)) β} {f' : α → M (St L A R (Obj (Ty × V))) β}
    (h : RS m m' s) (d : Det m') (hf : ∀ a t, m s = .ok a t → GoodN t → Kept s t → RS (f a) (f' a) t) :
    RS (m >>= f) (m' >>= f') s := by
  unfold RS at h ⊢
  rw [M.bind_eq]
  cases hm : m s with
  | ok a t =>
    rw [hm] at h
    obtain ⟨g, k, h⟩ := h
    have := hf a t hm g k
    unfold RS at this
    simp only
    rw [M.bind_ok h]
    cases hr : f a t with
    | ok b u => rw [hr] at this; exact ⟨this.1, k.trans this.2.1, this.2.2⟩
    | threw x u => rw [hr] at this; exact ⟨this.1, k.trans this.2.1, this.2.2⟩
    | terminated => rw [hr] at this; exact this
    | ub u => rw [hr] at this; exact Bad.bind_right d h this
    | diverged => rw [hr] at this; exact this
  | threw x t =>
    rw [hm] at h
    exact ⟨h.1, h.2.1, M.bind_threw h.2.2⟩
  | terminated => rw [hm] at h; simp only; rw [M.bind_eq, h]
  | ub u => rw [hm] at h; exact Bad.bind_left h
  | diverged => rw [hm] at h; simp only; rw [M.bind_eq, h]

theorem RS.onThrow {m : M (St L A R (PBody Ty V)) α} {m' : M (St L A R (Obj (Ty × V))) α}
    {c : M (St L A R (PBody Ty V)) Unit} {c' : M (St L A R (Obj (Ty × V))) Unit}
    (h : RS m m' s) (d : Det m') (hc : ∀ e t, m s = .threw e t → GoodN t → Kept s t → RS c c' t) :
    RS (M.onThrow m c) (M.onThrow m' c') s := by
  unfold RS at h ⊢
  unfold M.onThrow
  cases hm : m s with
  | ok a t => rw [hm] at h; exact ⟨h.1, h.2.1, by rw [h.2.2]⟩
  | threw x t =>
    rw [hm] at h
    obtain ⟨g, k, h⟩ := h
    have := hc x t hm g k
    unfold RS at this
    simp only
    cases hr : c t with
    | ok b u => rw [hr] at this; exact ⟨this.1, k.trans this.2.1, by rw [h]; simp only; rw [this.2.2]⟩
    | threw x u => rw [hr] at this; exact ⟨this.1, k.trans this.2.1, by rw [h]; simp only; rw [this.2.2]⟩
    | terminated => rw [hr] at this; simp only; rw [h]; simp only; rw [this]
    | ub u => rw [hr] at this; exact Bad.onThrow_right d h this
    | diverged => rw [hr] at this; simp only; rw [h]; simp only; rw [this]
  | terminated => rw [hm] at h; simp only; rw [h]
  | ub u => rw [hm] at h; exact Bad.onThrow_left h
  | diverged => rw [hm] at h; simp only; rw [h]

theorem RS.noexceptIf {m : M (St L A R (PBody Ty V)) α} {m' : M (St L A R (Obj (Ty × V))) α} (b : Bool)
    (h : RS m m' s) : RS (M.noexceptIf b m) (M.noexceptIf b m') s := by
  unfold RS at h ⊢
  unfold M.noexceptIf
  cases hm : m s with
  | ok a t => rw [hm] at h; exact ⟨h.1, h.2.1, by rw [h.2.2]⟩
  | threw x t =>
    rw [hm] at h
    obtain ⟨g, k, h⟩ := h
    cases b
    · exact ⟨g, k, by rw [h]; rfl⟩
    · simp only [if_true]; rw [h]
  | terminated => rw [hm] at h; simp only; rw [h]
  | ub u => rw [hm] at h; exact Bad.noexceptIf h
  | diverged => rw [hm] at h; simp only; rw [h]

/-- Run past a step of the first program that changes nothing. -/
theorem RS.left {m : M (St L A R (PBody Ty V)) α} {f : α → M (St L A R (PBody Ty V)) β}
    {m' : M (St L A R (Obj (Ty × V))) β} {a : α} (h : m s = .ok a s) (hf : RS (f a) m' s) : RS (m >>= f) m' s := by
  unfold RS at hf ⊢
  rw [M.bind_ok h]
  exact hf

/-- Run past a step of the second program that changes nothing. -/
theorem RS.right {m : M (St L A R (PBody Ty V)) β} {m' : M (St L A R (Obj (Ty × V))) α}
    {f' : α → M (St L A R (Obj (Ty × V))) β} {a : α} (d : Det m') (h : m' (view s) = .ok a (view s))
    (hf : RS m (f' a) s) : RS m (m' >>= f') s := by
  unfold RS at hf ⊢
  rw [M.bind_ok h]
  cases hm : m s with
  | ok a t => rw [hm] at hf; exact hf
  | threw a t => rw [hm] at hf; exact hf
  | terminated => rw [hm] at hf; exact hf
  | ub u => rw [hm] at hf; exact Bad.bind_right d h hf
  | diverged => rw [hm] at hf; exact hf

theorem RS.pure (G : GoodN s) (a : α) : RS (pure a) (pure a) s := ⟨G, Kept.refl s, rfl⟩

theorem RS.throwE (G : GoodN s) (e : Exn) : RS (M.throwE e : M _ α) (M.throwE e) s := ⟨G, Kept.refl s, rfl⟩

theorem RS.undef (u v : UB) : RS (M.undef u : M _ α) (M.undef v) s := Bad.here (Or.inl ⟨_, rfl⟩)

theorem RS.diverge : RS (M.diverge : M _ α) M.diverge s := rfl

/-- Steps that do not touch storage. -/
theorem RS.handles {m : M (St L A R (PBody Ty V)) α} {m' : M (St L A R (Obj (Ty × V))) α} (G : GoodN s)
    (h : RSim (m s) (m' (view s))) (hh : (m s).All fun t => t.heap = s.heap) : RS m m' s := by
  unfold RS
  cases hm : m s with
  | ok a t =>
    rw [hm] at h hh
    have hh : t.heap = s.heap := hh
    exact ⟨⟨h.1, by rw [hh]; exact G.ptr, by rw [hh]; exact G.fin⟩, Kept.of_heap hh, h.2⟩
  | threw a t =>
    rw [hm] at h hh
    have hh : t.heap = s.heap := hh
    exact ⟨⟨h.1, by rw [hh]; exact G.ptr, by rw [hh]; exact G.fin⟩, Kept.of_heap hh, h.2⟩
  | terminated => rw [hm] at h; exact h
  | ub u => rw [hm] at h; exact Bad.here (Or.inl h)
  | diverged => rw [hm] at h; exact h

theorem rs_getH (G : GoodN s) (x : L) : RS (getH x) (getH x) s :=
  RS.handles G (getH_sim G.good x) (by unfold getH; cases s.hs x <;> simp [Res.All])

theorem rs_setP (G : GoodN s) (x : L) (p : Option Addr) : RS (setP x p) (setP x p) s :=
  RS.handles G (setP_sim G.good x p) (by unfold setP; cases s.hs x <;> simp [Res.All])

theorem rs_setAlloc (G : GoodN s) (x : L) (a : A) : RS (setAlloc x a) (setAlloc x a) s :=
  RS.handles G (setAlloc_sim G.good x a) (by unfold setAlloc; cases s.hs x <;> simp [Res.All])

theorem rs_emplace (G : GoodN s) (x : L) (k : Handle A) : RS (emplace x k) (emplace x k) s :=
  RS.handles G (emplace_sim G.good x k) (by unfold emplace; cases s.hs x <;> simp [Res.All])

theorem rs_endLife (G : GoodN s) (x : L) : RS (endLife x) (endLife x) s :=
  RS.handles G (endLife_sim G.good x) (by unfold endLife; cases s.hs x <;> simp [Res.All])

theorem rs_choose (G : GoodN s) : RS choose choose s :=
  ⟨⟨G.good, G.ptr, G.fin⟩, Kept.refl s, rfl⟩

theorem rs_readAny (G : GoodN s) (q : Addr) : RS (readAny q) (readObj q) s := by
  refine RS.handles G (readAny_sim G.good q) ?_
  cases h : readAny q s with
  | ok a t => obtain ⟨rfl, -⟩ := readAny_inv h; exact rfl
  | threw e t =>
    rw [readAny_eq] at h
    split at h <;> cases h
  | terminated => trivial
  | ub u => trivial
  | diverged => trivial

theorem fin_upd {heap : Addr → Option (Cell R (PBody Ty V))} (h : ∃ n, ∀ p, n ≤ p → heap p = none) (q : Addr)
    (c : Option (Cell R (PBody Ty V))) : ∃ n, ∀ p, n ≤ p → upd heap q c p = none := by
  obtain ⟨n, h⟩ := h
  refine ⟨max n (q + 1), fun p hp => ?_⟩
  have h1 : n ≤ p := Nat.le_trans (Nat.le_max_left _ _) hp
  have h2 : q < p := Nat.lt_of_lt_of_le (Nat.lt_succ_self q) (Nat.le_trans (Nat.le_max_right _ _) hp)
  rw [upd_other _ _ (Nat.ne_of_gt h2)]
  exact h p h1

theorem rs_allocate (G : GoodN s) (r : R) : RS (allocate r) (allocate r) s := by
  have h := allocate_sim G.good r
  unfold RS
  rw [allocate_eq] at h ⊢
  cases hm : memOk s with
  | false =>
    rw [hm] at h
    exact ⟨⟨h.1, G.ptr, G.fin⟩, Kept.refl s, h.2⟩
  | true =>
    rw [hm] at h
    have hn : s.heap (s.env.pick s.ai) = none := by simp [memOk] at hm; exact hm.2
    refine ⟨⟨h.1, ?_, fin_upd G.fin _ _⟩, ?_, h.2⟩
    · intro p r' c hp
      simp only [if_true] at hp
      by_cases e : p = s.env.pick s.ai
      · subst e; rw [upd_same] at hp; cases hp
      · rw [upd_other _ _ e] at hp; exact G.ptr p r' c hp
    · intro p r' ty pp hp
      show upd s.heap _ _ p = _
      rw [upd_other _ _ (by rintro rfl; rw [hn] at hp; cases hp)]
      exact hp

theorem goodN_dealloc (G : GoodN s) (p : Addr) : GoodN { s with heap := upd s.heap p none } where
  good := by
    intro q r c v hq hu
    simp only at hq
    by_cases e : q = p
    · subst e; rw [upd_same] at hq; cases hq
    · rw [upd_other _ _ e] at hq; exact G.good q r c v hq hu
  ptr := by
    intro q r c hq
    simp only at hq
    by_cases e : q = p
    · subst e; rw [upd_same] at hq; cases hq
    · rw [upd_other _ _ e] at hq; exact G.ptr q r c hq
  fin := fin_upd G.fin _ _

/-- Freeing a block, relative to an earlier state in which it was not a control block without an object. -/
theorem rs_deallocate {s₀ : St L A R (PBody Ty V)} (G : GoodN s) (k : Kept s₀ s) (r : R) (p : Addr)
    (hp : ∀ r ty pp, s₀.heap p ≠ some ⟨r, some ⟨ty, pp, none⟩⟩) :
    match deallocate r p s with
    | .ok _ t => GoodN t ∧ Kept s₀ t ∧ deallocate r p (view s) = .ok () (view t)
    | .ub _ => ∃ u, deallocate r p (view s) = .ub u
    | _ => False := by
  have h := deallocate_sim G.good r p
  revert h
  cases hd : deallocate r p s with
  | ok a t =>
    rintro ⟨h1, h2⟩
    have ht : t.heap = upd s.heap p none := by
      unfold deallocate at hd
      split at hd
      · cases hd
      · split at hd
        · cases hd
        · split at hd
          · cases hd
          · cases hd; rfl
    have := goodN_dealloc G p
    refine ⟨⟨h1, by rw [ht]; exact this.ptr, by rw [ht]; exact this.fin⟩, ?_, h2⟩
    intro q r' ty pp hq
    rw [ht, upd_other _ _ (by rintro rfl; exact hp _ _ _ hq)]
    exact k q r' ty pp hq
  | threw e t =>
    intro _
    unfold deallocate at hd
    split at hd
    · cases hd
    · split at hd
      · cases hd
      · split at hd <;> cases hd
  | terminated =>
    intro _
    unfold deallocate at hd
    split at hd
    · cases hd
    · split at hd
      · cases hd
      · split at hd <;> cases hd
  | ub u => exact id
  | diverged =>
    intro _
    unfold deallocate at hd
    split at hd
    · cases hd
    · split at hd
      · cases hd
      · split at hd <;> cases hd

theorem rs_writeU (G : GoodN s) {q : Addr} {r : R} {ty : Ty} {pp : Option Addr} {v w : V}
    (hq : s.heap q = some ⟨r, some ⟨ty, pp, some v⟩⟩) : RS (writeU q w) (writeObj q (ty, w)) s := by
  have h := writeU_sim (w := w) G.good hq
  have h1 : writeU q w s = .ok () { s with heap := upd s.heap q (some ⟨r, some ⟨ty, pp, some w⟩⟩) } := by
    simp [writeU, readCB, readBody, writeBody, M.bind_eq, hq]
  unfold RS
  rw [h1] at h ⊢
  refine ⟨⟨h.1, ?_, fin_upd G.fin _ _⟩, ?_, h.2⟩
  · intro p r' c hp
    simp only at hp
    by_cases e : p = q
    · subst e; rw [upd_same] at hp; cases hp; exact G.ptr _ _ ⟨ty, pp, some v⟩ hq
    · rw [upd_other _ _ e] at hp; exact G.ptr p r' c hp
  · intro p r' ty' pp' hp
    show upd s.heap _ _ p = _
    rw [upd_other _ _ (by rintro rfl; rw [hq] at hp; cases hp)]
    exact hp

theorem readU_some {q : Addr} {r : R} {ty : Ty} {pp : Option Addr} {v : V}
    (hq : s.heap q = some ⟨r, some ⟨ty, pp, some v⟩⟩) : readU ty q s = .ok v s := by
  simp [readU, readCB, readBody, M.bind_eq, hq]

theorem readU_none {q : Addr} {r : R} {ty : Ty} {pp : Option Addr}
    (hq : s.heap q = some ⟨r, some ⟨ty, pp, none⟩⟩) : readU ty q s = .ub .deadObject := by
  simp [readU, readCB, readBody, M.bind_eq, hq]

theorem readObj_view {q : Addr} {r : R} {ty : Ty} {pp : Option Addr} {v : V}
    (hq : s.heap q = some ⟨r, some ⟨ty, pp, some v⟩⟩) : readObj q (view s) = .ok (ty, v) (view s) := by
  simp [readObj, readBody, M.bind_eq, view, hq, viewCell, viewBody]

/-- No object is alive at the address. -/
def DeadAt (w : St L A R (Obj (Ty × V))) (q : Addr) : Prop := ∀ r v, w.heap q ≠ some ⟨r, some v⟩

theorem DeadAt.readObj {w : St L A R (Obj (Ty × V))} {q : Addr} (h : DeadAt w q) : readObj q w = .ub .deadObject := by
  rw [readObj_eq]
  cases hq : w.heap q with
  | none => rfl
  | some c =>
    rcases c with ⟨r, _ | v⟩
    · rfl
    · exact absurd hq (h r v)

/-- The constructor of a control block, if the constructor of `U` ends by beginning the life of the object. -/
theorem rs_cbCtor {b : A} (G : GoodN s) {mem : Addr} {r : R} {ty : Ty} {how : How} (hm : s.heap mem = some ⟨r, none⟩)
    {k : A → Addr → M (St L A R (PBody Ty V)) Unit} {k' : M (St L A R (Obj (Ty × V))) Unit}
    {pre : M (St L A R (PBody Ty V)) V} {pre' : M (St L A R (Obj (Ty × V))) (Ty × V)}
    (hk : k b mem = pre >>= fun w => beginU ty mem w how) (hk' : k' = pre' >>= fun w => beginObj mem w how)
    (h : ∀ s₂ : St L A R (PBody Ty V), GoodN s₂ → s₂.heap = upd s.heap mem (some ⟨r, some ⟨ty, none, none⟩⟩) →
      RS (pre >>= fun w => Pure.pure (ty, w)) pre' s₂) :
    RS (cbCtor ty b mem k) k' s := by
  let s₂ : St L A R (PBody Ty V) := { s with heap := upd s.heap mem (some ⟨r, some ⟨ty, none, none⟩⟩) }
  have hv : view s₂ = view s := view_begin hm ty
  have G₂ : GoodN s₂ := by
    refine ⟨G.good.updNone mem r ⟨ty, none, none⟩ rfl, ?_, fin_upd G.fin _ _⟩
    intro p r' c hp
    by_cases e : p = mem
    · subst e
      have hp : upd s.heap p _ p = _ := hp
      rw [upd_same] at hp; cases hp; exact Or.inl rfl
    · have hp : upd s.heap mem _ p = _ := hp
      rw [upd_other _ _ e] at hp; exact G.ptr p r' c hp
  have K2 : ∀ t, Kept s₂ t → ∀ c, Kept s { t with heap := upd t.heap mem c } := by
    intro t kt c p r' ty' pp hp
    have hne : p ≠ mem := by rintro rfl; rw [hm] at hp; cases hp
    show upd t.heap mem c p = _
    rw [upd_other _ _ hne]
    refine kt p r' ty' pp ?_
    show upd s.heap mem _ p = _
    rw [upd_other _ _ hne]; exact hp
  have hpre := h s₂ G₂ rfl
  have hr : cbCtor ty b mem k s = (do M.onThrow (pre >>= fun w => beginU ty mem w how) (abortCB mem); setCBp mem mem) s₂ := by
    unfold cbCtor
    rw [M.bind_ok (beginCB_eval hm ty), hk]
  subst hk'
  unfold RS at hpre ⊢
  rw [hr, M.bind_eq]
  cases hp : pre s₂ with
  | ok w t =>
    rw [M.bind_eq, hp] at hpre
    obtain ⟨Gt, kt, ht⟩ := hpre
    have hmt : t.heap mem = some ⟨r, some ⟨ty, none, none⟩⟩ := kt mem r ty none (upd_same _ _ _)
    rw [onThrow_bind _ _ _ _ _ _ hp]
    have h1 : beginU ty mem w how t = .ok () { t with
        heap := upd t.heap mem (some ⟨r, some ⟨ty, none, some w⟩⟩), trace := t.trace ++ [.construct mem how] } := by
      simp [beginU, hmt]
    have h2 : M.onThrow (beginU ty mem w how) (abortCB mem) t = .ok () { t with
        heap := upd t.heap mem (some ⟨r, some ⟨ty, none, some w⟩⟩), trace := t.trace ++ [.construct mem how] } := by
      simp only [M.onThrow, h1]
    rw [h2]
    have h3 : setCBp mem mem { t with
        heap := upd t.heap mem (some ⟨r, some ⟨ty, none, some w⟩⟩), trace := t.trace ++ [.construct mem how] } =
        .ok () { t with
        heap := upd t.heap mem (some ⟨r, some ⟨ty, some mem, some w⟩⟩), trace := t.trace ++ [.construct mem how] } := by
      simp [setCBp, readCB, readBody, writeBody, M.bind_eq]
    simp only
    rw [h3]
    refine ⟨⟨?_, ?_, fin_upd Gt.fin _ _⟩, K2 t kt _, ?_⟩
    · intro p r' c v hq hu
      simp only at hq
      by_cases e : p = mem
      · subst e; rw [upd_same] at hq; cases hq; rfl
      · rw [upd_other _ _ e] at hq; exact Gt.good p r' c v hq hu
    · intro p r' c hq
      simp only at hq
      by_cases e : p = mem
      · subst e; rw [upd_same] at hq; cases hq; exact Or.inr rfl
      · rw [upd_other _ _ e] at hq; exact Gt.ptr p r' c hq
    · rw [← hv, M.bind_ok ht]
      have he : (view t).heap mem = some ⟨r, none⟩ := by simp [view, hmt, viewCell, viewBody]
      simp only [beginObj, he]
      simp only [view, view_upd]
      rfl
  | threw x t =>
    rw [M.bind_eq, hp] at hpre
    obtain ⟨Gt, kt, ht⟩ := hpre
    have hmt : t.heap mem = some ⟨r, some ⟨ty, none, none⟩⟩ := kt mem r ty none (upd_same _ _ _)
    have h1 : M.onThrow (pre >>= fun w => beginU ty mem w how) (abortCB mem) s₂ =
        .threw x { t with heap := upd t.heap mem (some ⟨r, none⟩) } := by
      simp only [M.onThrow, M.bind_threw hp]
      simp [abortCB, readCB, readBody, writeBody, M.bind_eq, hmt]
    rw [h1]
    refine ⟨⟨?_, ?_, fin_upd Gt.fin _ _⟩, K2 t kt _, ?_⟩
    · intro p r' c v hq hu
      simp only at hq
      by_cases e : p = mem
      · subst e; rw [upd_same] at hq; cases hq
      · rw [upd_other _ _ e] at hq; exact Gt.good p r' c v hq hu
    · intro p r' c hq
      simp only at hq
      by_cases e : p = mem
      · subst e; rw [upd_same] at hq; cases hq
      · rw [upd_other _ _ e] at hq; exact Gt.ptr p r' c hq
    · rw [← hv, M.bind_threw ht]
      congr 1
      simp only [view, view_upd]
      congr 1
      exact (upd_id _ _ _ (by simp [view, hmt, viewCell, viewBody])).symm
  | terminated =>
    rw [M.bind_eq, hp] at hpre
    simp only [M.onThrow, M.bind_eq, hp]
    rw [← hv, hpre]
  | ub u =>
    rw [M.bind_eq, hp] at hpre
    simp only [M.onThrow, M.bind_eq, hp]
    rw [← hv]
    exact Bad.bind_left hpre
  | diverged =>
    rw [M.bind_eq, hp] at hpre
    simp only [M.onThrow, M.bind_eq, hp]
    rw [← hv, hpre]

/-- If the constructor of a control block throws there is only storage left. -/
theorem cbCtor_threw {b : A} {ty : Ty} {mem : Addr} {k : A → Addr → M (St L A R (PBody Ty V)) Unit} {e : Exn}
    (h : cbCtor ty b mem k s = .threw e t) : ∃ r, t.heap mem = some ⟨r, none⟩ := by
  unfold cbCtor at h
  rw [M.bind_eq] at h
  cases h1 : beginCB ty mem s with
  | ok a s₁ =>
    rw [h1] at h
    simp only at h
    rw [M.bind_eq] at h
    have ha : ∀ u : St L A R (PBody Ty V), (match abortCB mem u with
        | .ok _ u' => ∃ r, u'.heap mem = some ⟨r, none⟩
        | .ub _ => True
        | _ => False) := by
      intro u
      cases hu : u.heap mem with
      | none => simp [abortCB, readCB, readBody, M.bind_eq, hu]
      | some c =>
        rcases c with ⟨r, _ | ⟨ty, pp, _ | v⟩⟩ <;>
          simp [abortCB, readCB, readBody, writeBody, M.bind_eq, hu, upd_same]
    have hb : ∀ u : St L A R (PBody Ty V), (match setCBp mem mem u with
        | .ok _ _ => True
        | .ub _ => True
        | _ => False) := by
      intro u
      cases hu : u.heap mem with
      | none => simp [setCBp, readCB, readBody, M.bind_eq, hu]
      | some c => rcases c with ⟨r, _ | c⟩ <;> simp [setCBp, readCB, readBody, writeBody, M.bind_eq, hu]
    unfold M.onThrow at h
    cases h2 : k b mem s₁ with
    | ok a u =>
      rw [h2] at h
      have := hb u
      simp only at h
      rw [h] at this
      exact this.elim
    | threw x u =>
      rw [h2] at h
      have := ha u
      simp only at h
      cases h3 : abortCB mem u with
      | ok a u' => rw [h3] at this h; cases h; exact this
      | threw x u' => rw [h3] at this; exact this.elim
      | terminated => rw [h3] at this; exact this.elim
      | ub u => rw [h3] at h; cases h
      | diverged => rw [h3] at this; exact this.elim
    | terminated => rw [h2] at h; cases h
    | ub u => rw [h2] at h; cases h
    | diverged => rw [h2] at h; cases h
  | threw a s₁ =>
    unfold beginCB at h1
    split at h1 <;> cases h1
  | terminated => rw [h1] at h; cases h
  | ub u => rw [h1] at h; cases h
  | diverged => rw [h1] at h; cases h

theorem allocate_inv {r : R} {p : Addr} (h : allocate r s = .ok p t) :
    s.heap p = none ∧ t.heap = upd s.heap p (some ⟨r, none⟩) := by
  rw [allocate_eq] at h
  cases hm : memOk s with
  | false => rw [hm] at h; cases h
  | true =>
    rw [hm] at h
    cases h
    simp [memOk] at hm
    exact ⟨hm.2, rfl⟩

/-- Creation of a control block. -/
theorem rs_create (G : GoodN s) {tr : ATraits A R} {I : POps (St L A R (PBody Ty V)) A Ty X} (hb : ∀ a mem m, I.block a mem m = m) {ty : Ty} {a : A} {k : A → Addr → M (St L A R (PBody Ty V)) Unit}
    {k' : A → Addr → M (St L A R (Obj (Ty × V))) Unit} (d : ∀ mem, Det (k' a mem))
    (hk : ∀ mem s₁, GoodN s₁ → s₁.heap = upd s.heap mem (some ⟨tr.res a, none⟩) → s.heap mem = none →
      RS (cbCtor ty a mem k) (k' a mem) s₁) :
    RS (createControlBlock tr I ty a k) (Indirect.constructFrom tr a k') s := by
  unfold createControlBlock Indirect.constructFrom
  simp only [hb]
  refine (rs_allocate G _).bind (det_allocate _) fun mem s₁ h1 G1 k1 => ?_
  obtain ⟨hn, hh⟩ := allocate_inv h1
  refine RS.bind (RS.onThrow (hk mem s₁ G1 hh hn) (d mem) fun x t h2 G2 k2 => ?_)
    (det_onThrow (d mem) (det_deallocate _ _)) fun _ t _ G2 _ => RS.pure G2 _
  obtain ⟨r, hr⟩ := cbCtor_threw h2
  have := rs_deallocate (s₀ := t) G2 (Kept.refl t) (tr.res a) mem (by intro r' ty' pp' e; rw [hr] at e; cases e)
  unfold RS
  cases hd : deallocate (tr.res a) mem t with
  | ok b u => rw [hd] at this; exact this
  | threw b u => rw [hd] at this; exact this.elim
  | terminated => rw [hd] at this; exact this.elim
  | ub u => rw [hd] at this; exact Bad.here (Or.inl this)
  | diverged => rw [hd] at this; exact this.elim

/-- Construction from an object that is not alive: bad if storage is available. -/
theorem bad_construct (G : GoodN s) {tr : ATraits A R} {a : A} {q : Addr}
    {k' : A → Addr → M (St L A R (Obj (Ty × V))) Unit} (hq : DeadAt (view s) q)
    (hk : ∀ mem w, DeadAt w q → (∃ u, k' a mem w = .ub u) ∨ k' a mem w = .diverged) :
    Bad (Indirect.constructFrom tr a k') (view s) := by
  obtain ⟨n, hn⟩ := G.fin
  let e : Env := ⟨upd s.env.fail s.ai false, upd s.env.pick s.ai n, s.env.choice⟩
  refine ⟨e, ⟨fun i hi => ?_, fun _ _ => rfl⟩, ?_⟩
  · have : i ≠ s.ai := by have : i < s.ai := hi; omega
    exact ⟨upd_other _ _ this, upd_other _ _ this⟩
  · have hm : memOk ((view s).inEnv e) = true := by
      simp [memOk, St.inEnv, view, e, hn n (Nat.le_refl n)]
    have hp : ((view s).inEnv e).env.pick ((view s).inEnv e).ai = n := upd_same _ _ _
    unfold Indirect.constructFrom
    rw [M.bind_eq, allocate_eq, hm, hp]
    simp only [if_true]
    rw [M.bind_eq]
    unfold M.onThrow
    have hd : DeadAt ({ (view s).inEnv e with
        heap := upd ((view s).inEnv e).heap n (some ⟨tr.res a, Body.raw⟩)
        trace := ((view s).inEnv e).trace ++ [.alloc (tr.res a) n]
        ai := ((view s).inEnv e).ai + 1 } : St L A R (Obj (Ty × V))) q := by
      intro r v h
      simp only at h
      by_cases e' : q = n
      · subst e'; rw [upd_same] at h; cases h
      · rw [upd_other _ _ e'] at h; exact hq r v h
    rcases hk n _ hd with ⟨u, h⟩ | h <;> rw [h]
    · exact Or.inl ⟨_, rfl⟩
    · exact Or.inr rfl

end

/-- Corresponding operations of owned types. -/
structure OpsSim (tr : ATraits A R) (I : POps (St L A R (PBody Ty V)) A Ty X)
    (I' : TOps (St L A R (Obj (Ty × V))) A (Ty × TArgs X)) : Prop where
  det : DetOps Det I'
  notAssignable : I'.assignable = false
  make : ∀ {b : A} (s : St L A R (PBody Ty V)) mem r ty us, GoodN s → s.heap mem = some ⟨r, none⟩ →
    RS (cbCtor ty b mem (fun a m => I.make ty a m (.pack us))) (I'.make b mem (.pack [(ty, .pack us)])) s
  copy : ∀ {b : A} (s : St L A R (PBody Ty V)) mem r q r' ty pp u, GoodN s → s.heap mem = some ⟨r, none⟩ →
    s.heap q = some ⟨r', some ⟨ty, pp, u⟩⟩ → RS (cbCtor ty b mem (fun a m => I.copyCtor ty a m q)) (I'.copyCtor b mem q) s
  move : ∀ {b : A} (s : St L A R (PBody Ty V)) mem r q r' ty pp u, GoodN s → s.heap mem = some ⟨r, none⟩ →
    s.heap q = some ⟨r', some ⟨ty, pp, u⟩⟩ → RS (cbCtor ty b mem (fun a m => I.moveCtor ty a m q)) (I'.moveCtor b mem q) s
  destroy : ∀ (s : St L A R (PBody Ty V)) q r ty pp u a, GoodN s → s.heap q = some ⟨r, some ⟨ty, pp, u⟩⟩ →
    RS (destroyCB tr I ty q a) (Indirect.destroyWith tr I' a q) s
  copyBad : ∀ {b : A} w mem q, DeadAt w q → (∃ u, I'.copyCtor b mem q w = .ub u) ∨ I'.copyCtor b mem q w = .diverged
  moveBad : ∀ {b : A} w mem q, DeadAt w q → (∃ u, I'.moveCtor b mem q w = .ub u) ∨ I'.moveCtor b mem q w = .diverged
  dtorBad : ∀ w a q, DeadAt w q → (∃ u, I'.dtor a q w = .ub u) ∨ I'.dtor a q w = .diverged
  block : ∀ a mem m, I.block a mem m = m

section
variable {s : St L A R (PBody Ty V)} {tr : ATraits A R} {I : POps (St L A R (PBody Ty V)) A Ty X}
variable {I' : TOps (St L A R (Obj (Ty × V))) A (Ty × TArgs X)} (h : OpsSim tr I I')

/-- There is a control block, or the object is not alive. -/
theorem cb_or_dead (s : St L A R (PBody Ty V)) (q : Addr) :
    (∃ r c, s.heap q = some ⟨r, some c⟩ ∧ readCB q s = .ok c s) ∨
    (DeadAt (view s) q ∧ readCB q s = .ub .deadObject) := by
  cases hq : s.heap q with
  | none => exact Or.inr ⟨fun r v e => by simp [view, hq] at e, by simp [readCB, readBody, M.bind_eq, hq]⟩
  | some c =>
    rcases c with ⟨r, _ | c⟩
    · exact Or.inr ⟨fun r v e => by simp [view, hq, viewCell, viewBody] at e, by simp [readCB, readBody, M.bind_eq, hq]⟩
    · exact Or.inl ⟨r, c, rfl, by simp [readCB, readBody, M.bind_eq, hq]⟩

include h

theorem rs_vclone (G : GoodN s) (q : Addr) (a : A) :
    RS (vclone tr I q a) (Indirect.constructFrom tr a (fun a m => I'.copyCtor a m q)) s := by
  unfold vclone
  rcases cb_or_dead s q with ⟨r, ⟨ty, pp, u⟩, hq, hr⟩ | ⟨hd, hr⟩
  · refine RS.left hr ?_
    refine rs_create G h.block (fun mem => h.det.copyCtor _ _ _) fun mem s₁ G1 h1 hn => ?_
    exact h.copy s₁ mem _ q r ty pp u G1 (by rw [h1, upd_same])
      (by rw [h1, upd_other _ _ (by rintro rfl; rw [hn] at hq; cases hq), hq])
  · unfold RS
    rw [M.bind_eq, hr]
    exact bad_construct G hd (fun mem w hw => h.copyBad w mem q hw)

theorem rs_vmove (G : GoodN s) (q : Addr) (a : A) :
    RS (vmove tr I q a) (Indirect.constructFrom tr a (fun a m => I'.moveCtor a m q)) s := by
  unfold vmove
  rcases cb_or_dead s q with ⟨r, ⟨ty, pp, u⟩, hq, hr⟩ | ⟨hd, hr⟩
  · refine RS.left hr ?_
    refine rs_create G h.block (fun mem => h.det.moveCtor _ _ _) fun mem s₁ G1 h1 hn => ?_
    exact h.move s₁ mem _ q r ty pp u G1 (by rw [h1, upd_same])
      (by rw [h1, upd_other _ _ (by rintro rfl; rw [hn] at hq; cases hq), hq])
  · unfold RS
    rw [M.bind_eq, hr]
    exact bad_construct G hd (fun mem w hw => h.moveBad w mem q hw)

theorem rs_vdestroy (G : GoodN s) (q : Addr) (a : A) :
    RS (vdestroy tr I q a) (Indirect.destroyWith tr I' a q) s := by
  unfold vdestroy
  rcases cb_or_dead s q with ⟨r, ⟨ty, pp, u⟩, hq, hr⟩ | ⟨hd, hr⟩
  · exact RS.left hr (h.destroy s q r ty pp u a G hq)
  · unfold RS
    rw [M.bind_eq, hr]
    exact Bad.bind_left (Bad.here (h.dtorBad _ _ q hd))

theorem rs_reset (G : GoodN s) (x : L) : RS (reset tr I x) (Indirect.reset tr I' x) s := by
  unfold reset Indirect.reset
  refine RS.noexceptIf _ ((rs_getH G x).bind (det_getH x) fun k t _ G1 _ => ?_)
  cases k.p with
  | none => exact RS.pure G1 _
  | some q =>
    refine (rs_vdestroy h G1 q _).bind (det_bind (h.det.dtor _ q) fun _ => det_deallocate _ _) fun _ t _ G2 _ => ?_
    exact rs_setP G2 _ _

theorem rs_dtor (G : GoodN s) (x : L) : RS (dtor tr I x) (Indirect.dtor tr I' x) s := by
  unfold dtor Indirect.dtor
  exact RS.noexceptIf _ ((rs_reset h G x).bind (det_reset tr h.det x) fun _ t _ G1 _ => rs_endLife G1 x)

omit h in
theorem rs_valueless (G : GoodN s) (x : L) : RS (valueless x) (Indirect.valueless x) s :=
  (rs_getH G x).bind (det_getH x) fun _ _ _ G1 _ => RS.pure G1 _

omit h in
theorem rs_derefCB (G : GoodN s) (x : L) : RS (derefCB x) (Indirect.deref x) s := by
  unfold derefCB Indirect.deref
  refine (rs_getH G x).bind (det_getH x) fun k t _ G1 _ => ?_
  cases k.p with
  | none => exact RS.undef _ _
  | some q => exact RS.pure G1 _

theorem rs_ctorInPlaceA (G : GoodN s) (a : A) (ty : Ty) (us : List X) :
    RS (ctorInPlaceA tr I a ty us) (Indirect.ctorInPlaceA tr I' a [(ty, .pack us)]) s := by
  unfold ctorInPlaceA Indirect.ctorInPlaceA
  refine RS.bind (rs_create G h.block (fun mem => h.det.make _ _ _) fun mem s₁ G1 h1 _ => ?_)
    (det_constructFrom tr _ fun _ mem => h.det.make _ _ _) fun _ t _ G2 _ => RS.pure G2 _
  exact h.make s₁ mem _ ty us G1 (by rw [h1, upd_same])

theorem rs_ctorCopyA (G : GoodN s) (a : A) (y : L) :
    RS (ctorCopyA tr I a y) (Indirect.ctorCopyA tr I' a y) s := by
  unfold ctorCopyA Indirect.ctorCopyA
  refine (rs_valueless G y).bind (det_valueless y) fun b t _ G1 _ => ?_
  cases b with
  | true => exact RS.pure G1 _
  | false =>
    refine (rs_derefCB G1 y).bind (det_deref y) fun q t _ G2 _ => ?_
    exact (rs_vclone h G2 q a).bind (det_constructFrom tr _ fun _ _ => h.det.copyCtor _ _ _) fun _ t _ G3 _ => RS.pure G3 _

theorem rs_ctorCopy (G : GoodN s) (y : L) : RS (ctorCopy tr I y) (Indirect.ctorCopy tr I' y) s :=
  (rs_getH G y).bind (det_getH y) fun _ _ _ G1 _ => rs_ctorCopyA h G1 _ _

theorem rs_ctorMoveA (G : GoodN s) (a : A) (y : L) :
    RS (ctorMoveA tr I a y) (Indirect.ctorMoveA tr I' a y) s := by
  unfold ctorMoveA Indirect.ctorMoveA
  refine RS.noexceptIf _ ((rs_getH G y).bind (det_getH y) fun o t _ G1 _ => ?_)
  cases tr.alwaysEqual with
  | true => exact (rs_setP G1 y none).bind (det_setP y none) fun _ t _ G2 _ => RS.pure G2 _
  | false =>
    cases tr.eq a o.alloc with
    | true => exact (rs_setP G1 y none).bind (det_setP y none) fun _ t _ G2 _ => RS.pure G2 _
    | false =>
      refine (rs_valueless G1 y).bind (det_valueless y) fun b t _ G1 _ => ?_
      cases b with
      | true => exact RS.pure G1 _
      | false =>
        refine (rs_derefCB G1 y).bind (det_deref y) fun q t _ G2 _ => ?_
        exact (rs_vmove h G2 q a).bind (det_constructFrom tr _ fun _ _ => h.det.moveCtor _ _ _)
          fun _ t _ G3 _ => RS.pure G3 _

theorem rs_ctorMove (G : GoodN s) (y : L) : RS (ctorMove tr I y) (Indirect.ctorMove tr I' y) s := by
  unfold ctorMove Indirect.ctorMove
  exact RS.noexceptIf _ ((rs_getH G y).bind (det_getH y) fun o t _ G1 _ => rs_ctorMoveA h G1 _ _)

omit h in
theorem rs_updAlloc (G : GoodN s) (b : Bool) (x y : L) :
    RS (do
        if b then
          let o ← getH y
          setAlloc x o.alloc
        pure x : M _ L)
      (do
        if b then
          let o ← getH y
          setAlloc x o.alloc
        pure x : M _ L) s := by
  cases b with
  | true =>
    refine (rs_getH G y).bind (det_getH y) fun o t _ G1 _ => ?_
    exact (rs_setAlloc G1 _ _).bind (det_setAlloc _ _) fun _ t _ G1 _ => RS.pure G1 _
  | false => exact RS.pure G _

theorem rs_assignCopy (G : GoodN s) (x y : L) :
    RS (assignCopy tr I x y) (Indirect.assignCopy tr I' x y) s := by
  unfold assignCopy Indirect.assignCopy
  by_cases hxy : x = y
  · simp only [hxy, if_true]; exact RS.pure G _
  · simp only [hxy, if_false]
    refine (rs_valueless G y).bind (det_valueless y) fun b t hb G1 _ => ?_
    obtain ⟨rfl, o, ho, hb'⟩ := valueless_inv hb
    cases b with
    | true => exact (rs_reset h G1 x).bind (det_reset tr h.det x) fun _ t _ G2 _ => rs_updAlloc G2 _ _ _
    | false =>
      simp only [Bool.false_eq_true, if_false, h.notAssignable, Bool.false_and]
      have hp : ∃ q, o.p = some q := by
        cases hq : o.p with
        | none => rw [hq] at hb'; cases hb'
        | some q => exact ⟨q, rfl⟩
      obtain ⟨q, hp⟩ := hp
      have hd : derefCB y t = .ok q t := by simp [derefCB, M.bind_eq, getH, ho, hp]
      have hd' : Indirect.deref y (view t) = .ok q (view t) := by
        simp [Indirect.deref, M.bind_eq, getH, view, ho, hp]
      refine RS.left hd ?_
      refine (rs_getH G1 x).bind (det_getH x) fun t' t ht G2 _ => ?_
      obtain ⟨rfl, -⟩ := getH_inv ht
      refine (rs_getH G2 y).bind (det_getH y) fun o' t ho' G2 _ => ?_
      obtain ⟨rfl, -⟩ := getH_inv ho'
      refine RS.right (det_deref y) hd' ?_
      refine (rs_vclone h G2 q _).bind (det_constructFrom tr _ fun _ _ => h.det.copyCtor _ _ _) fun _ _ _ G3 _ => ?_
      refine (rs_reset h G3 x).bind (det_reset tr h.det x) fun _ t _ G2 _ => ?_
      exact (rs_setP G2 _ _).bind (det_setP _ _) fun _ _ _ G3 _ => rs_updAlloc G3 _ _ _

theorem rs_assignMove (G : GoodN s) (x y : L) :
    RS (assignMove tr I x y) (Indirect.assignMove tr I' x y) s := by
  unfold assignMove Indirect.assignMove
  refine RS.noexceptIf _ ?_
  by_cases hxy : x = y
  · simp only [hxy, if_true]; exact RS.pure G _
  · simp only [hxy, if_false]
    refine (rs_valueless G y).bind (det_valueless y) fun b t hb G1 _ => ?_
    cases b with
    | true => exact (rs_reset h G1 x).bind (det_reset tr h.det x) fun _ t _ G2 _ => rs_updAlloc G2 _ _ _
    | false =>
      simp only [Bool.false_eq_true, if_false]
      refine (rs_getH G1 x).bind (det_getH x) fun t' t ht G2 _ => ?_
      refine (rs_getH G2 y).bind (det_getH y) fun o t ho G2 _ => ?_
      cases tr.eq t'.alloc o.alloc with
      | true =>
        refine (rs_setP G2 _ _).bind (det_setP _ _) fun _ _ _ G3 _ => ?_
        refine (rs_setP G3 _ _).bind (det_setP _ _) fun _ _ _ G3 _ => ?_
        exact (rs_reset h G3 y).bind (det_reset tr h.det y) fun _ t _ G2 _ => rs_updAlloc G2 _ _ _
      | false =>
        refine (rs_derefCB G2 y).bind (det_deref y) fun q t hq G2 _ => ?_
        refine (rs_vmove h G2 q _).bind (det_constructFrom tr _ fun _ _ => h.det.moveCtor _ _ _) fun _ _ _ G3 _ => ?_
        refine (rs_reset h G3 x).bind (det_reset tr h.det x) fun _ t _ G2 _ => ?_
        exact (rs_setP G2 _ _).bind (det_setP _ _) fun _ _ _ G3 _ => rs_updAlloc G3 _ _ _

omit h in
theorem rs_swap (G : GoodN s) (x y : L) : RS (swap tr x y) (Indirect.swap tr x y) s := by
  unfold swap Indirect.swap
  refine RS.noexceptIf _ ?_
  refine (rs_getH G x).bind (det_getH x) fun t _ _ G _ => ?_
  refine (rs_getH G y).bind (det_getH y) fun o _ _ G _ => ?_
  cases tr.pocs with
  | true =>
    refine (rs_setAlloc G _ _).bind (det_setAlloc _ _) fun _ _ _ G _ => ?_
    refine (rs_setAlloc G _ _).bind (det_setAlloc _ _) fun _ _ _ G _ => ?_
    refine (rs_setP G _ _).bind (det_setP _ _) fun _ _ _ G _ => ?_
    exact rs_setP G _ _
  | false =>
    cases tr.eq t.alloc o.alloc with
    | true =>
      refine (rs_setP G _ _).bind (det_setP _ _) fun _ _ _ G _ => ?_
      exact rs_setP G _ _
    | false => exact RS.undef _ _

omit h in
/-- Access to the owned object. -/
theorem rs_access {α : Type} (G : GoodN s) (x : L) {f : Addr → M (St L A R (PBody Ty V)) α}
    {f' : Addr → M (St L A R (Obj (Ty × V))) α} (hf : ∀ p t, GoodN t → RS (f p) (f' p) t) :
    RS (do let p ← deref x; let _ ← readAny p; f p) (do let p ← Indirect.deref x; let _ ← readObj p; f' p) s := by
  cases hx : s.hs x with
  | none =>
    unfold RS
    simp only [deref, derefCB, getH, M.bind_eq, hx]
    exact Bad.here (Or.inl ⟨.deadHandle, by simp [Indirect.deref, getH, M.bind_eq, view, hx]⟩)
  | some k =>
    cases hp : k.p with
    | none =>
      unfold RS
      simp only [deref, derefCB, getH, M.bind_eq, hx, hp, M.undef_eq]
      exact Bad.here (Or.inl ⟨.valuelessAccess, by simp [Indirect.deref, getH, M.bind_eq, view, hx, hp]⟩)
    | some q =>
      have hd' : Indirect.deref x (view s) = .ok q (view s) := by
        simp [Indirect.deref, M.bind_eq, getH, view, hx, hp]
      have hd : derefCB x s = .ok q s := by simp [derefCB, M.bind_eq, getH, hx, hp]
      have bad : DeadAt (view s) q → (∃ u, deref x s = .ub u) →
          RS (do let p ← deref x; let _ ← readAny p; f p) (do let p ← Indirect.deref x; let _ ← readObj p; f' p) s := by
        intro hdead ⟨u, hu⟩
        unfold RS
        rw [M.bind_eq, hu]
        refine Bad.here (Or.inl ⟨.deadObject, ?_⟩)
        rw [M.bind_ok hd', M.bind_eq, hdead.readObj]
      rcases cb_or_dead s q with ⟨r, ⟨ty, pp, u⟩, hq, hr⟩ | ⟨hdead, hr⟩
      · cases pp with
        | none =>
          have hu : u = none := by
            cases u with
            | none => rfl
            | some v => exact absurd (G.good q r _ v hq rfl) (by simp)
          subst hu
          refine bad (fun r v e => ?_) ⟨.deadObject, by unfold deref; rw [M.bind_ok hd, M.bind_ok hr]; rfl⟩
          simp [view, hq, viewCell, viewBody] at e
        | some p =>
          have hpq : p = q := by
            have := G.ptr q r _ hq
            simpa using this
          subst hpq
          refine RS.left (a := p) (by unfold deref; rw [M.bind_ok hd, M.bind_ok hr]; rfl) ?_
          refine RS.right (det_deref x) hd' ?_
          exact (rs_readAny G p).bind (det_readObj p) fun _ t _ G1 _ => hf p t G1
      · exact bad hdead ⟨_, by unfold deref; rw [M.bind_ok hd, M.bind_eq, hr]⟩

end
end
end PNode
end Verif
