import Verif.Spec.Opaque
import Verif.Proofs.Looking

/-!
# Owned types that cannot be told apart: the functions of the headers
-/

set_option autoImplicit false
set_option linter.unusedSectionVars false
set_option linter.unusedSimpArgs false

namespace Verif.Opaque
open Verif Verif.Spec.Opaque

section
variable {L A R B B' α α' β β' : Type} [DecidableEq L] [DecidableEq R] [Body B] [Body B']

/-- Raw storage is related to raw storage, and what is related is occupied on both sides or on neither. -/
structure BodyRel (RB : B → B' → Prop) : Prop where
  raw : RB Body.raw Body.raw
  occupied : ∀ b b', RB b b' → Body.occupied b = Body.occupied b'

variable {RB : B → B' → Prop} (K : BodyRel RB)

/-- The cells at an address of states that are alike. -/
theorem cells {s : St L A R B} {s' : St L A R B'} (h : Alike RB s s') (p : Addr) :
    (s.heap p = none ∧ s'.heap p = none) ∨ ∃ r b b', s.heap p = some ⟨r, b⟩ ∧ s'.heap p = some ⟨r, b'⟩ ∧ RB b b' := by
  have hp := h.heap p
  cases h1 : s.heap p with
  | none =>
    cases h2 : s'.heap p with
    | none => exact .inl ⟨rfl, rfl⟩
    | some c' => rw [h1, h2] at hp; exact hp.elim
  | some c =>
    cases h2 : s'.heap p with
    | none => rw [h1, h2] at hp; exact hp.elim
    | some c' =>
      rw [h1, h2] at hp
      obtain ⟨r, b⟩ := c
      obtain ⟨r', b'⟩ := c'
      obtain ⟨hr, hb⟩ := hp
      cases hr
      exact .inr ⟨r, b, b', rfl, rfl, hb⟩

theorem upd_heap {h : Addr → Option (Cell R B)} {h' : Addr → Option (Cell R B')} (hh : ∀ p, AlikeCell RB (h p) (h' p)) (q : Addr) {c : Option (Cell R B)} {c' : Option (Cell R B')}
    (hc : AlikeCell RB c c') (p : Addr) : AlikeCell RB (upd h q c p) (upd h' q c' p) := by
  unfold upd
  by_cases e : p = q
  · rw [if_pos e, if_pos e]; exact hc
  · rw [if_neg e, if_neg e]; exact hh p

include K

theorem BodyRel.pureR {ρ : α → α' → Prop} {a : α} {b : α'} (h : ρ a b) : AlikeM (L := L) (A := A) (R := R) RB ρ (Pure.pure a) (Pure.pure b) := fun _ _ hs => ⟨h, hs⟩

theorem BodyRel.pure (a : α) : AlikeM (L := L) (A := A) (R := R) RB Eq (Pure.pure a) (Pure.pure a) := fun _ _ hs => ⟨rfl, hs⟩

theorem BodyRel.undef {ρ : α → α' → Prop} (u : UB) : AlikeM (L := L) (A := A) (R := R) RB ρ (M.undef u) (M.undef u) := fun _ _ _ => rfl

theorem BodyRel.throwE {ρ : α → α' → Prop} (e : Exn) : AlikeM (L := L) (A := A) (R := R) RB ρ (M.throwE e) (M.throwE e) := fun _ _ hs => ⟨rfl, hs⟩

theorem BodyRel.emit (ev : Ev R) : AlikeM (L := L) (A := A) RB Eq (Verif.emit ev) (Verif.emit ev) := fun _ _ hs => ⟨rfl, { hs with trace := congrArg (· ++ [ev]) hs.trace }⟩

theorem BodyRel.choose : AlikeM (L := L) (A := A) (R := R) RB Eq Verif.choose Verif.choose := by
  intro s s' hs
  refine ⟨?_, { hs with ti := congrArg (· + 1) hs.ti }⟩
  rw [hs.env, hs.ti]

theorem BodyRel.getH (l : L) : AlikeM (A := A) (R := R) RB Eq (Verif.getH l) (Verif.getH l) := by
  intro s s' hs
  unfold Verif.getH
  rw [← hs.hs]
  cases s.hs l with
  | none => exact rfl
  | some h => exact ⟨rfl, hs⟩

theorem BodyRel.setP (l : L) (p : Option Addr) : AlikeM (A := A) (R := R) RB Eq (Verif.setP l p) (Verif.setP l p) := by
  intro s s' hs
  unfold Verif.setP
  rw [← hs.hs]
  cases s.hs l with
  | none => exact rfl
  | some h => exact ⟨rfl, { hs with hs := rfl }⟩

theorem BodyRel.setAlloc (l : L) (a : A) : AlikeM (R := R) RB Eq (Verif.setAlloc l a) (Verif.setAlloc l a) := by
  intro s s' hs
  unfold Verif.setAlloc
  rw [← hs.hs]
  cases s.hs l with
  | none => exact rfl
  | some h => exact ⟨rfl, { hs with hs := rfl }⟩

theorem BodyRel.emplace (l : L) (t : Handle A) : AlikeM (R := R) RB Eq (Verif.emplace l t) (Verif.emplace l t) := by
  intro s s' hs
  unfold Verif.emplace
  rw [← hs.hs]
  cases s.hs l with
  | none => exact ⟨rfl, { hs with hs := rfl }⟩
  | some h => exact rfl

theorem BodyRel.endLife (l : L) : AlikeM (A := A) (R := R) RB Eq (Verif.endLife l) (Verif.endLife l) := by
  intro s s' hs
  unfold Verif.endLife
  rw [← hs.hs]
  cases s.hs l with
  | none => exact rfl
  | some h => exact ⟨rfl, { hs with hs := rfl }⟩

theorem BodyRel.allocate (r : R) : AlikeM (L := L) (A := A) RB Eq (Verif.allocate r) (Verif.allocate r) := by
  intro s s' hs
  unfold Verif.allocate
  simp only [← hs.env, ← hs.ai]
  cases s.env.fail s.ai with
  | true => exact ⟨rfl, { hs with env := rfl, ai := rfl }⟩
  | false =>
    rcases cells hs (s.env.pick s.ai) with ⟨h1, h2⟩ | ⟨r', b, b', h1, h2, _⟩
    · simp only [h1, h2]
      exact ⟨rfl, { hs with env := rfl, ai := rfl, heap := upd_heap hs.heap _ ⟨rfl, K.raw⟩, trace := congrArg (· ++ [.alloc r (s.env.pick s.ai)]) hs.trace }⟩
    · simp only [h1, h2]
      exact ⟨rfl, { hs with env := rfl, ai := rfl }⟩

theorem BodyRel.deallocate (r : R) (p : Addr) : AlikeM (L := L) (A := A) RB Eq (Verif.deallocate r p) (Verif.deallocate r p) := by
  intro s s' hs
  unfold Verif.deallocate
  rcases cells hs p with ⟨h1, h2⟩ | ⟨r', b, b', h1, h2, hb⟩
  · rw [h1, h2]; exact rfl
  · rw [h1, h2]
    simp only [K.occupied b b' hb]
    by_cases hr : r' ≠ r
    · rw [if_pos hr, if_pos hr]; exact rfl
    · rw [if_neg hr, if_neg hr]
      cases Body.occupied b' with
      | true => exact rfl
      | false => exact ⟨rfl, { hs with heap := upd_heap hs.heap _ trivial, trace := congrArg (· ++ [.dealloc r p]) hs.trace }⟩

theorem BodyRel.readBody (p : Addr) : AlikeM (L := L) (A := A) (R := R) RB RB (Verif.readBody p) (Verif.readBody p) := by
  intro s s' hs
  unfold Verif.readBody
  rcases cells hs p with ⟨h1, h2⟩ | ⟨r', b, b', h1, h2, hb⟩
  · rw [h1, h2]; exact rfl
  · rw [h1, h2]; exact ⟨hb, hs⟩

theorem BodyRel.writeBody (p : Addr) {b : B} {b' : B'} (h : RB b b') : AlikeM (L := L) (A := A) (R := R) RB Eq (Verif.writeBody p b) (Verif.writeBody p b') := by
  intro s s' hs
  unfold Verif.writeBody
  rcases cells hs p with ⟨h1, h2⟩ | ⟨r', c, c', h1, h2, _⟩
  · rw [h1, h2]; exact rfl
  · rw [h1, h2]; exact ⟨rfl, { hs with heap := upd_heap hs.heap _ ⟨rfl, h⟩ }⟩

theorem BodyRel.bindR {ρ : α → α' → Prop} {ρ' : β → β' → Prop} {m : M (St L A R B) α} {m' : M (St L A R B') α'} {f : α → M (St L A R B) β} {f' : α' → M (St L A R B') β'}
    (h1 : AlikeM RB ρ m m') (h2 : ∀ a b, ρ a b → AlikeM RB ρ' (f a) (f' b)) : AlikeM RB ρ' (m >>= f) (m' >>= f') := by
  intro s s' hs
  show AlikeRes RB ρ' (M.andThen m f s) (M.andThen m' f' s')
  unfold M.andThen
  have h := h1 s s' hs
  cases hm : m s <;> cases hm' : m' s' <;> rw [hm, hm'] at h <;> first | exact h.elim | exact h | skip
  exact h2 _ _ h.1 _ _ h.2

theorem BodyRel.bind {ρ' : β → β' → Prop} {m : M (St L A R B) α} {m' : M (St L A R B') α} {f : α → M (St L A R B) β} {f' : α → M (St L A R B') β'}
    (h1 : AlikeM RB Eq m m') (h2 : ∀ a, AlikeM RB ρ' (f a) (f' a)) : AlikeM RB ρ' (m >>= f) (m' >>= f') :=
  K.bindR h1 fun a _ e => e ▸ h2 a

theorem BodyRel.onThrow {ρ : α → α' → Prop} {m : M (St L A R B) α} {m' : M (St L A R B') α'} {c : M (St L A R B) Unit} {c' : M (St L A R B') Unit} (h1 : AlikeM RB ρ m m')
    (h2 : AlikeM RB Eq c c') : AlikeM RB ρ (M.onThrow m c) (M.onThrow m' c') := by
  intro s s' hs
  unfold M.onThrow
  have h := h1 s s' hs
  cases hm : m s <;> cases hm' : m' s' <;> rw [hm, hm'] at h <;> first | exact h.elim | exact h | skip
  rename_i e t e' t'
  have k := h2 t t' h.2
  simp only
  cases hc : c t <;> cases hc' : c' t' <;> rw [hc, hc'] at k <;> first | exact k.elim | exact ⟨h.1, k.2⟩ | exact k

theorem BodyRel.noexceptIf {ρ : α → α' → Prop} (b : Bool) {m : M (St L A R B) α} {m' : M (St L A R B') α'} (h1 : AlikeM RB ρ m m') :
    AlikeM RB ρ (M.noexceptIf b m) (M.noexceptIf b m') := by
  intro s s' hs
  unfold M.noexceptIf
  have h := h1 s s' hs
  cases hm : m s <;> cases hm' : m' s' <;> rw [hm, hm'] at h <;> first | exact h.elim | exact h | skip
  cases b
  · exact h
  · exact trivial

omit K

theorem BodyRel.ite {ρ : α → α' → Prop} {c : Prop} [Decidable c] {m n : M (St L A R B) α} {m' n' : M (St L A R B') α'} (h1 : AlikeM RB ρ m m') (h2 : AlikeM RB ρ n n') :
    AlikeM RB ρ (if c then m else n) (if c then m' else n') := by
  by_cases hc : c
  · rw [if_pos hc, if_pos hc]; exact h1
  · rw [if_neg hc, if_neg hc]; exact h2

end

/-! ## indirect.h -/

section
variable {L A R B B' X : Type} [DecidableEq L] [DecidableEq R] [Body B] [Body B']

/-- Types with related functions. -/
structure AlikeOps (RB : B → B' → Prop) (T : TOps (St L A R B) A X) (T' : TOps (St L A R B') A X) : Prop where
  make : ∀ a d xs, AlikeM RB Eq (T.make a d xs) (T'.make a d xs)
  copyCtor : ∀ a d q, AlikeM RB Eq (T.copyCtor a d q) (T'.copyCtor a d q)
  moveCtor : ∀ a d q, AlikeM RB Eq (T.moveCtor a d q) (T'.moveCtor a d q)
  copyAssign : ∀ d q, AlikeM RB Eq (T.copyAssign d q) (T'.copyAssign d q)
  moveAssign : ∀ d q, AlikeM RB Eq (T.moveAssign d q) (T'.moveAssign d q)
  assignArg : ∀ d x, AlikeM RB Eq (T.assignArg d x) (T'.assignArg d x)
  dtor : ∀ a p, AlikeM RB Eq (T.dtor a p) (T'.dtor a p)
  assignable : T.assignable = T'.assignable
  copyAssignable : T.copyAssignable = T'.copyAssignable

variable {tr : ATraits A R} {RB : B → B' → Prop}
variable {T : TOps (St L A R B) A X} {T' : TOps (St L A R B') A X} (K : BodyRel RB) (H : AlikeOps RB T T')
include K

theorem makeFwd_rel (H : AlikeOps RB T T') (a : A) (m : Addr) (u : Fwd X) : AlikeM RB Eq (T.makeFwd a m u) (T'.makeFwd a m u) := by
  cases u
  · exact H.make _ _ _
  · exact H.copyCtor _ _ _
  · exact H.moveCtor _ _ _

theorem assignFwd_rel (H : AlikeOps RB T T') (m : Addr) (u : Fwd X) : AlikeM RB Eq (T.assignFwd m u) (T'.assignFwd m u) := by
  cases u
  · exact H.assignArg _ _
  · exact H.copyAssign _ _
  · exact H.moveAssign _ _

theorem constructFrom_rel {a : A} {k : A → Addr → M (St L A R B) Unit} {k' : A → Addr → M (St L A R B') Unit} (h : ∀ a m, AlikeM RB Eq (k a m) (k' a m)) : AlikeM RB Eq (Indirect.constructFrom tr a k) (Indirect.constructFrom tr a k') := by
  unfold Indirect.constructFrom
  exact K.bind (K.allocate _) fun m => K.bind (K.onThrow (h _ _) (K.deallocate _ _)) fun _ => K.pure _

theorem deref_rel (l : L) : AlikeM RB Eq (Indirect.deref l : M (St L A R B) Addr) (Indirect.deref l) := by
  unfold Indirect.deref
  refine K.bind (K.getH l) fun t => ?_
  cases t.p with
  | none => exact K.undef _
  | some p => exact K.pure _

theorem valueless_rel (l : L) : AlikeM RB Eq (Indirect.valueless l : M (St L A R B) Bool) (Indirect.valueless l) := K.bind (K.getH l) fun _ => K.pure _

include H

theorem reset_rel (l : L) : AlikeM RB Eq (Indirect.reset tr T l) (Indirect.reset tr T' l) := by
  unfold Indirect.reset
  refine K.noexceptIf _ (K.bind (K.getH l) fun t => ?_)
  cases t.p with
  | none => exact K.pure _
  | some p => exact K.bind (K.bind (H.dtor _ _) fun _ => K.deallocate _ _) fun _ => K.setP _ _

theorem ctorCopyA_rel (a : A) (y : L) : AlikeM RB Eq (Indirect.ctorCopyA tr T a y) (Indirect.ctorCopyA tr T' a y) := by
  unfold Indirect.ctorCopyA
  refine K.bind (valueless_rel K y) fun v => BodyRel.ite (K.pure _) ?_
  exact K.bind (deref_rel K y) fun q => K.bind (constructFrom_rel K fun a m => H.copyCtor _ _ _) fun _ => K.pure _

theorem ctorMoveA_rel (a : A) (y : L) : AlikeM RB Eq (Indirect.ctorMoveA tr T a y) (Indirect.ctorMoveA tr T' a y) := by
  unfold Indirect.ctorMoveA
  refine K.noexceptIf _ (K.bind (K.getH y) fun o => BodyRel.ite (K.bind (K.setP _ _) fun _ => K.pure _) (BodyRel.ite (K.bind (K.setP _ _) fun _ => K.pure _) ?_))
  refine K.bind (valueless_rel K y) fun v => BodyRel.ite ?_ (K.pure _)
  exact K.bind (deref_rel K y) fun q => K.bind (constructFrom_rel K fun a m => H.moveCtor _ _ _) fun _ => K.pure _

theorem tail_rel (b : Bool) (x y : L) : AlikeM RB Eq (if b = true then (getH y >>= fun o => setAlloc x o.alloc >>= fun _ => Pure.pure x) else Pure.pure x : M (St L A R B) L)
    (if b = true then (getH y >>= fun o => setAlloc x o.alloc >>= fun _ => Pure.pure x) else Pure.pure x) :=
  BodyRel.ite (K.bind (K.getH _) fun _ => K.bind (K.setAlloc _ _) fun _ => K.pure _) (K.pure _)

theorem assignCopy_rel (x y : L) : AlikeM RB Eq (Indirect.assignCopy tr T x y) (Indirect.assignCopy tr T' x y) := by
  unfold Indirect.assignCopy
  refine BodyRel.ite (K.pure _) ?_
  simp only []
  refine K.bind (valueless_rel K y) fun v => BodyRel.ite (K.bind (reset_rel K H x) fun _ => tail_rel K H _ x y) ?_
  refine K.bind (K.getH x) fun t => K.bind (K.getH y) fun o => ?_
  rw [H.assignable]
  refine BodyRel.ite ?_ ?_
  · exact K.bind (deref_rel K x) fun d => K.bind (deref_rel K y) fun q => K.bind (H.copyAssign _ _) fun _ => tail_rel K H _ x y
  · exact K.bind (deref_rel K y) fun q => K.bind (constructFrom_rel K fun a m => H.copyCtor _ _ _) fun tmp => K.bind (reset_rel K H x) fun _ => K.bind (K.setP _ _) fun _ => tail_rel K H _ x y

theorem assignMove_rel (x y : L) : AlikeM RB Eq (Indirect.assignMove tr T x y) (Indirect.assignMove tr T' x y) := by
  unfold Indirect.assignMove
  refine K.noexceptIf _ (BodyRel.ite (K.pure _) ?_)
  simp only []
  refine K.bind (valueless_rel K y) fun v => BodyRel.ite (K.bind (reset_rel K H x) fun _ => tail_rel K H _ x y) ?_
  refine K.bind (K.getH x) fun t => K.bind (K.getH y) fun o => BodyRel.ite ?_ ?_
  · exact K.bind (K.setP _ _) fun _ => K.bind (K.setP _ _) fun _ => K.bind (reset_rel K H y) fun _ => tail_rel K H _ x y
  · exact K.bind (deref_rel K y) fun q => K.bind (constructFrom_rel K fun a m => H.moveCtor _ _ _) fun tmp => K.bind (reset_rel K H x) fun _ => K.bind (K.setP _ _) fun _ => tail_rel K H _ x y

theorem assignFrom_rel (x : L) (u : Fwd X) : AlikeM RB Eq (Indirect.assignFrom tr T x u) (Indirect.assignFrom tr T' x u) := by
  unfold Indirect.assignFrom
  simp only []
  refine K.bind (valueless_rel K x) fun v => BodyRel.ite ?_ ?_
  · exact K.bind (K.getH x) fun t => K.bind (constructFrom_rel K fun a m => makeFwd_rel K H a m u) fun p => K.bind (K.setP _ _) fun _ => K.pure _
  · exact K.bind (deref_rel K x) fun d => K.bind (assignFwd_rel K H d u) fun _ => K.pure _

omit H

theorem swap_rel (x y : L) : AlikeM RB Eq (Indirect.swap tr x y : M (St L A R B) Unit) (Indirect.swap tr x y) := by
  unfold Indirect.swap
  refine K.noexceptIf _ (K.bind (K.getH x) fun t => K.bind (K.getH y) fun o => BodyRel.ite ?_ (BodyRel.ite ?_ (K.undef _)))
  · exact K.bind (K.setAlloc _ _) fun _ => K.bind (K.setAlloc _ _) fun _ => K.bind (K.setP _ _) fun _ => K.setP _ _
  · exact K.bind (K.setP _ _) fun _ => K.setP _ _

end

section
variable {L A R V W X : Type} [DecidableEq L] [DecidableEq R]
variable {tr : ATraits A R} {Rv : V → W → Prop}

theorem objRel : BodyRel (ObjRel Rv) where
  raw := trivial
  occupied b b' h := by cases b <;> cases b' <;> first | rfl | exact h.elim

variable {T : TOps (St L A R (Obj V)) A X} {T' : TOps (St L A R (Obj W)) A X} (K : BodyRel (ObjRel Rv)) (H : AlikeOps (ObjRel Rv) T T')
include K

theorem evalSrc_rel (u : Src L X) : AlikeM (ObjRel Rv) Eq (Indirect.evalSrc u : M (St L A R (Obj V)) (Fwd X)) (Indirect.evalSrc u) := by
  cases u
  · exact K.pure _
  · exact K.bind (deref_rel K _) fun _ => K.pure _
  · exact K.bind (deref_rel K _) fun _ => K.pure _

theorem readObj_rel (p : Addr) : AlikeM (L := L) (A := A) (R := R) (ObjRel Rv) Rv (readObj p) (readObj p) := by
  unfold readObj
  refine K.bindR (K.readBody p) fun b b' h => ?_
  cases b <;> cases b' <;> first | exact h.elim | exact K.undef _ | exact K.pureR h

theorem writeObj_rel (p : Addr) {v : V} {w : W} (h : Rv v w) : AlikeM (L := L) (A := A) (R := R) (ObjRel Rv) Eq (writeObj p v) (writeObj p w) :=
  K.bindR (readObj_rel K p) fun _ _ _ => K.writeBody p (b := some v) (b' := some w) h

include H

theorem construct_rel (a : Option A) (k : Ctor L X) : AlikeM (ObjRel Rv) Eq (Indirect.construct tr T a k) (Indirect.construct tr T' a k) := by
  have hm (a : A) (xs : TArgs X) := constructFrom_rel (tr := tr) (a := a) K (fun a m => H.make a m xs)
  have hf (a : A) (u : Fwd X) := constructFrom_rel (tr := tr) (a := a) K (fun a m => makeFwd_rel K H a m u)
  cases a <;> cases k <;> unfold Indirect.construct
  case none.default => exact K.bind (hm _ _) fun _ => K.pure _
  case none.from u => exact K.bind (evalSrc_rel K u) fun u => K.bind (hf _ u) fun _ => K.pure _
  case none.inPlace us => exact K.bind (hm _ _) fun _ => K.pure _
  case none.inPlaceOne u => exact K.bind (evalSrc_rel K u) fun u => K.bind (hf _ u) fun _ => K.pure _
  case none.ilist => exact K.bind (hm _ _) fun _ => K.pure _
  case some.default => exact K.bind (hm _ _) fun _ => K.pure _
  case some.from u => exact K.bind (evalSrc_rel K u) fun u => K.bind (hf _ u) fun _ => K.pure _
  case some.inPlace us => exact K.bind (hm _ _) fun _ => K.pure _
  case some.inPlaceOne u => exact K.bind (evalSrc_rel K u) fun u => K.bind (hf _ u) fun _ => K.pure _
  case some.ilist => exact K.bind (hm _ _) fun _ => K.pure _

theorem step_rel {o : Op L A V X} {o' : Op L A W X} (ho : AlikeOp Rv o o') : AlikeM (ObjRel Rv) (AlikeOut Rv) (Indirect.step tr T o) (Indirect.step tr T' o') := by
  cases ho <;> unfold Indirect.step
  case make x a k => exact K.bind (construct_rel K H a k) fun h => K.bind (K.emplace _ _) fun _ => K.pureR (by constructor)
  case copy x y => exact K.bind (K.bind (K.getH y) fun o => ctorCopyA_rel K H _ y) fun h => K.bind (K.emplace _ _) fun _ => K.pureR (by constructor)
  case copyA x a y => exact K.bind (ctorCopyA_rel K H a y) fun h => K.bind (K.emplace _ _) fun _ => K.pureR (by constructor)
  case move x y => exact K.bind (K.noexceptIf _ (K.bind (K.getH y) fun o => ctorMoveA_rel K H _ y)) fun h => K.bind (K.emplace _ _) fun _ => K.pureR (by constructor)
  case moveA x a y => exact K.bind (ctorMoveA_rel K H a y) fun h => K.bind (K.emplace _ _) fun _ => K.pureR (by constructor)
  case destroy x => exact K.bind (K.noexceptIf _ (K.bind (reset_rel K H x) fun _ => K.endLife x)) fun _ => K.pureR (by constructor)
  case assignCopy x y => exact K.bind (assignCopy_rel K H x y) fun _ => K.pureR (by constructor)
  case assignMove x y => exact K.bind (assignMove_rel K H x y) fun _ => K.pureR (by constructor)
  case assignFrom x u => exact K.bind (evalSrc_rel K u) fun u => K.bind (assignFrom_rel K H x u) fun _ => K.pureR (by constructor)
  case deref x => exact K.bind (deref_rel K x) fun p => K.bindR (readObj_rel K p) fun _ _ h => K.pureR (.value _ _ h)
  case arrow x => exact K.bind (deref_rel K x) fun p => K.bindR (readObj_rel K p) fun _ _ h => K.pureR (.value _ _ h)
  case modify x f g hf => exact K.bind (deref_rel K x) fun p => K.bindR (readObj_rel K p) fun _ _ h => K.bind (writeObj_rel K p (hf _ _ h)) fun _ => K.pureR .unit
  case valueless x => exact K.bind (valueless_rel K x) fun _ => K.pureR (by constructor)
  case getAllocator x => exact K.bind (K.bind (K.getH x) fun _ => K.pure _) fun _ => K.pureR (by constructor)
  case swap x y => exact K.bind (swap_rel K x y) fun _ => K.pureR (by constructor)
  case friendSwap x y => exact K.bind (K.noexceptIf _ (swap_rel K x y)) fun _ => K.pureR (by constructor)

theorem step14_rel {o : Op L A V X} {o' : Op L A W X} (ho : AlikeOp Rv o o') : AlikeM (ObjRel Rv) (AlikeOut Rv) (Indirect14.step tr T o) (Indirect14.step tr T' o') := by
  rw [Looking.step14, Looking.step14]
  refine step_rel K ?_ ho
  exact { H with assignable := H.copyAssignable }

end

/-! ## polymorphic.h -/

section
variable {L A R Ty V W X : Type} [DecidableEq L] [DecidableEq R] [DecidableEq Ty]
variable {tr : ATraits A R} {Rt : Ty → V → W → Prop}

theorem cbRel : BodyRel (CBRel Rt) where
  raw := trivial
  occupied b b' h := by
    cases b <;> cases b' <;> first | rfl | exact h.elim | skip
    rename_i c c'
    obtain ⟨ty, q, u⟩ := c
    obtain ⟨ty', q', u'⟩ := c'
    obtain ⟨_, _, hu⟩ := h
    cases u <;> cases u' <;> first | rfl | exact hu.elim

variable {P : POps (St L A R (PBody Ty V)) A Ty X} {P' : POps (St L A R (PBody Ty W)) A Ty X} (K : BodyRel (CBRel Rt)) (H : AlikeP Rt P P')
include K

theorem readCB_rel (p : Addr) : AlikeM (L := L) (A := A) (R := R) (CBRel Rt) (fun c c' => CBRel Rt (some c) (some c')) (readCB (Ty := Ty) p) (readCB p) := by
  unfold readCB
  refine K.bindR (K.readBody p) fun b b' h => ?_
  cases b <;> cases b' <;> first | exact h.elim | exact K.undef _ | exact K.pureR h

theorem abortCB_rel (p : Addr) : AlikeM (L := L) (A := A) (R := R) (CBRel Rt) Eq (abortCB (Ty := Ty) (V := V) p) (abortCB p) := by
  unfold abortCB
  refine K.bindR (readCB_rel K p) fun c c' h => ?_
  obtain ⟨ty, q, u⟩ := c
  obtain ⟨ty', q', u'⟩ := c'
  obtain ⟨_, _, hu⟩ := h
  cases u <;> cases u' <;> first | exact hu.elim | exact K.undef _ | exact K.writeBody _ (b := none) (b' := none) trivial

theorem setCBp_rel (p q : Addr) : AlikeM (L := L) (A := A) (R := R) (CBRel Rt) Eq (setCBp (Ty := Ty) (V := V) p q) (setCBp p q) :=
  K.bindR (readCB_rel K p) fun c c' h => K.writeBody _ (b := some { c with p := some q }) (b' := some { c' with p := some q }) ⟨h.1, rfl, h.2.2⟩

theorem beginCB_rel (ty : Ty) (q : Addr) : AlikeM (L := L) (A := A) (R := R) (CBRel Rt) Eq (beginCB ty q) (beginCB ty q) := by
  intro s s' hs
  unfold beginCB
  rcases cells hs q with ⟨h1, h2⟩ | ⟨r, b, b', h1, h2, hb⟩
  · rw [h1, h2]; exact rfl
  · rw [h1, h2]
    cases b <;> cases b' <;> first | exact hb.elim | exact rfl | exact ⟨rfl, { hs with heap := upd_heap hs.heap _ ⟨rfl, rfl, rfl, trivial⟩ }⟩

include H

theorem resetP_rel (l : L) : AlikeM (CBRel Rt) Eq (Polymorphic.reset tr P l) (Polymorphic.reset tr P' l) := by
  unfold Polymorphic.reset
  refine K.noexceptIf _ (K.bind (K.getH l) fun t => ?_)
  cases t.p with
  | none => exact K.pure _
  | some p => exact K.bind (K.bindR (readCB_rel K p) fun c c' h => K.bind (h.1 ▸ H.dtor _ _ _) fun _ => K.deallocate _ _) fun _ => K.setP _ _

theorem create_rel {ty : Ty} {a : A} {k : A → Addr → M (St L A R (PBody Ty V)) Unit} {k' : A → Addr → M (St L A R (PBody Ty W)) Unit}
    (h : ∀ a m, AlikeM (CBRel Rt) Eq (k a m) (k' a m)) : AlikeM (CBRel Rt) Eq (Polymorphic.createControlBlock tr P ty a k) (Polymorphic.createControlBlock tr P' ty a k') := by
  unfold Polymorphic.createControlBlock
  refine K.bind (K.allocate _) fun m => K.bind (K.onThrow (H.block _ _ _ _ ?_) (K.deallocate _ _)) fun _ => K.pure _
  exact K.bind (beginCB_rel K _ _) fun _ => K.bind (K.onThrow (h _ _) (abortCB_rel K m)) fun _ => setCBp_rel K _ _

theorem vclone_rel (p : Addr) (a : A) : AlikeM (CBRel Rt) Eq (Polymorphic.vclone tr P p a) (Polymorphic.vclone tr P' p a) := by
  unfold Polymorphic.vclone
  exact K.bindR (readCB_rel K p) fun c c' h => h.1 ▸ create_rel K H (ty := c.ty) (k := fun a m => P.copyCtor c.ty a m p) (k' := fun a m => P'.copyCtor c.ty a m p) fun _ _ => H.copyCtor _ _ _ _

theorem vmove_rel (p : Addr) (a : A) : AlikeM (CBRel Rt) Eq (Polymorphic.vmove tr P p a) (Polymorphic.vmove tr P' p a) := by
  unfold Polymorphic.vmove
  exact K.bindR (readCB_rel K p) fun c c' h => h.1 ▸ create_rel K H (ty := c.ty) (k := fun a m => P.moveCtor c.ty a m p) (k' := fun a m => P'.moveCtor c.ty a m p) fun _ _ => H.moveCtor _ _ _ _

theorem ctorCopyAP_rel (a : A) (y : L) : AlikeM (CBRel Rt) Eq (Polymorphic.ctorCopyA tr P a y) (Polymorphic.ctorCopyA tr P' a y) := by
  unfold Polymorphic.ctorCopyA
  exact K.bind (valueless_rel K y) fun v => BodyRel.ite (K.bind (deref_rel K y) fun p => K.bind (vclone_rel K H p a) fun _ => K.pure _) (K.pure _)

theorem ctorMoveAP_rel (a : A) (y : L) : AlikeM (CBRel Rt) Eq (Polymorphic.ctorMoveA tr P a y) (Polymorphic.ctorMoveA tr P' a y) := by
  unfold Polymorphic.ctorMoveA
  refine K.noexceptIf _ (K.bind (K.getH y) fun o => BodyRel.ite (K.bind (K.setP _ _) fun _ => K.pure _) (BodyRel.ite (K.bind (K.setP _ _) fun _ => K.pure _) ?_))
  exact K.bind (valueless_rel K y) fun v => BodyRel.ite (K.bind (deref_rel K y) fun p => K.bind (vmove_rel K H p a) fun _ => K.pure _) (K.pure _)

theorem ctorMoveAP14_rel (a : A) (y : L) : AlikeM (CBRel Rt) Eq (Polymorphic14.ctorMoveA tr P a y) (Polymorphic14.ctorMoveA tr P' a y) := by
  unfold Polymorphic14.ctorMoveA
  refine K.noexceptIf _ (K.bind (K.getH y) fun o => BodyRel.ite (K.bind (K.setP _ _) fun _ => K.pure _) (BodyRel.ite (K.bind (K.setP _ _) fun _ => K.pure _) ?_))
  exact K.bind (valueless_rel K y) fun v => BodyRel.ite (K.bind (deref_rel K y) fun p => K.bind (vmove_rel K H p a) fun _ => K.pure _) (K.pure _)

theorem tailP_rel (b : Bool) (x y : L) : AlikeM (CBRel Rt) Eq (if b = true then (getH y >>= fun o => setAlloc x o.alloc >>= fun _ => Pure.pure x) else Pure.pure x : M (St L A R (PBody Ty V)) L)
    (if b = true then (getH y >>= fun o => setAlloc x o.alloc >>= fun _ => Pure.pure x) else Pure.pure x) :=
  BodyRel.ite (K.bind (K.getH _) fun _ => K.bind (K.setAlloc _ _) fun _ => K.pure _) (K.pure _)

theorem assignCopyP_rel (x y : L) : AlikeM (CBRel Rt) Eq (Polymorphic.assignCopy tr P x y) (Polymorphic.assignCopy tr P' x y) := by
  unfold Polymorphic.assignCopy
  refine BodyRel.ite (K.pure _) ?_
  simp only []
  refine K.bind (valueless_rel K y) fun v => BodyRel.ite (K.bind (resetP_rel K H x) fun _ => tailP_rel K H _ x y) ?_
  refine K.bind (deref_rel K y) fun q => K.bind (K.getH x) fun t => K.bind (K.getH y) fun o => ?_
  exact K.bind (vclone_rel K H _ _) fun tmp => K.bind (resetP_rel K H x) fun _ => K.bind (K.setP _ _) fun _ => tailP_rel K H _ x y

theorem assignMoveP_rel (x y : L) : AlikeM (CBRel Rt) Eq (Polymorphic.assignMove tr P x y) (Polymorphic.assignMove tr P' x y) := by
  unfold Polymorphic.assignMove
  refine K.noexceptIf _ (BodyRel.ite (K.pure _) ?_)
  simp only []
  refine K.bind (valueless_rel K y) fun v => BodyRel.ite (K.bind (resetP_rel K H x) fun _ => tailP_rel K H _ x y) ?_
  refine K.bind (K.getH x) fun t => K.bind (K.getH y) fun o => BodyRel.ite ?_ ?_
  · exact K.bind (K.setP _ _) fun _ => K.bind (K.setP _ _) fun _ => K.bind (resetP_rel K H y) fun _ => tailP_rel K H _ x y
  · exact K.bind (deref_rel K y) fun q => K.bind (vmove_rel K H _ _) fun tmp => K.bind (resetP_rel K H x) fun _ => K.bind (K.setP _ _) fun _ => tailP_rel K H _ x y

omit H

theorem derefP_rel (l : L) : AlikeM (A := A) (R := R) (CBRel Rt) Eq (Polymorphic.deref (Ty := Ty) (V := V) l) (Polymorphic.deref l) := by
  unfold Polymorphic.deref
  refine K.bind (deref_rel K l) fun p => K.bindR (readCB_rel K p) fun c c' h => ?_
  rw [h.2.1]
  cases c'.p with
  | none => exact K.undef _
  | some p => exact K.pure _

theorem readAny_rel (p : Addr) : AlikeM (L := L) (A := A) (R := R) (CBRel Rt) (TyRel Rt) (readAny (Ty := Ty) (V := V) p) (readAny p) := by
  unfold readAny
  refine K.bindR (readCB_rel K p) fun c c' h => ?_
  obtain ⟨ty, q, u⟩ := c
  obtain ⟨ty', q', u'⟩ := c'
  obtain ⟨ht, _, hu⟩ := h
  cases u <;> cases u' <;> first | exact hu.elim | exact K.undef _ | exact K.pureR ⟨ht, hu⟩

omit K in
/-- What `writeU` does. -/
theorem writeU_none {s : St L A R (PBody Ty V)} {p : Addr} (v : V) (h : s.heap p = none ∨ (∃ r, s.heap p = some ⟨r, none⟩) ∨ ∃ r t q, s.heap p = some ⟨r, some ⟨t, q, none⟩⟩) :
    writeU p v s = .ub .deadObject := by
  rcases h with h | ⟨r, h⟩ | ⟨r, t, q, h⟩ <;> simp [-bind_pure_comp, writeU, readCB, readBody, M.bind_eq, M.andThen, M.undef, M.pure_eq, h]

omit K in
theorem writeU_some {s : St L A R (PBody Ty V)} {p : Addr} (v : V) {r : R} {t : Ty} {q : Option Addr} {u : V} (h : s.heap p = some ⟨r, some ⟨t, q, some u⟩⟩) :
    writeU p v s = .ok () { s with heap := upd s.heap p (some ⟨r, some ⟨t, q, some v⟩⟩) } := by
  simp [-bind_pure_comp, writeU, readCB, readBody, writeBody, M.bind_eq, M.andThen, M.undef, M.pure_eq, h]

omit K in
/-- The control blocks at an address. -/
theorem blocks {s : St L A R (PBody Ty V)} {s' : St L A R (PBody Ty W)} (hs : Alike (CBRel Rt) s s') (p : Addr) :
    ((s.heap p = none ∨ (∃ r, s.heap p = some ⟨r, none⟩) ∨ ∃ r t q, s.heap p = some ⟨r, some ⟨t, q, none⟩⟩) ∧
      (s'.heap p = none ∨ (∃ r, s'.heap p = some ⟨r, none⟩) ∨ ∃ r t q, s'.heap p = some ⟨r, some ⟨t, q, none⟩⟩)) ∨
    ∃ r t q v w, s.heap p = some ⟨r, some ⟨t, q, some v⟩⟩ ∧ s'.heap p = some ⟨r, some ⟨t, q, some w⟩⟩ ∧ Rt t v w := by
  rcases cells hs p with ⟨h1, h2⟩ | ⟨r, b, b', h1, h2, hb⟩
  · exact .inl ⟨.inl h1, .inl h2⟩
  · cases b <;> cases b' <;> first | exact hb.elim | exact .inl ⟨.inr (.inl ⟨_, h1⟩), .inr (.inl ⟨_, h2⟩)⟩ | skip
    rename_i c c'
    obtain ⟨ty, q, u⟩ := c
    obtain ⟨ty', q', u'⟩ := c'
    obtain ⟨ht, hq, hu⟩ := hb
    cases ht
    cases hq
    cases u <;> cases u' <;> first | exact hu.elim | exact .inl ⟨.inr (.inr ⟨_, _, _, h1⟩), .inr (.inr ⟨_, _, _, h2⟩)⟩ | exact .inr ⟨_, _, _, _, _, h1, h2, hu⟩

omit K in
/-- Writing values that are related for the type of the object that is there. -/
theorem writeU_at {s : St L A R (PBody Ty V)} {s' : St L A R (PBody Ty W)} (hs : Alike (CBRel Rt) s s') (p : Addr) {v : V} {w : W}
    (hv : ∀ r t q u, s.heap p = some ⟨r, some ⟨t, q, some u⟩⟩ → Rt t v w) : AlikeRes (CBRel Rt) Eq (writeU p v s) (writeU p w s') := by
  rcases blocks hs p with ⟨h1, h2⟩ | ⟨r, t, q, a, b, h1, h2, _⟩
  · rw [writeU_none v h1, writeU_none w h2]; exact rfl
  · rw [writeU_some v h1, writeU_some w h2]
    exact ⟨rfl, { hs with heap := upd_heap hs.heap _ ⟨rfl, rfl, rfl, hv _ _ _ _ h1⟩ }⟩

omit K in
theorem readAny_none {s : St L A R (PBody Ty V)} {p : Addr} (h : s.heap p = none ∨ (∃ r, s.heap p = some ⟨r, none⟩) ∨ ∃ r t q, s.heap p = some ⟨r, some ⟨t, q, none⟩⟩) :
    readAny p s = .ub .deadObject := by
  rcases h with h | ⟨r, h⟩ | ⟨r, t, q, h⟩ <;> simp [-bind_pure_comp, readAny, readCB, readBody, M.bind_eq, M.andThen, M.undef, M.pure_eq, h]

omit K in
theorem readAny_some {s : St L A R (PBody Ty V)} {p : Addr} {r : R} {t : Ty} {q : Option Addr} {u : V} (h : s.heap p = some ⟨r, some ⟨t, q, some u⟩⟩) : readAny p s = .ok (t, u) s := by
  simp [-bind_pure_comp, readAny, readCB, readBody, M.bind_eq, M.andThen, M.undef, M.pure_eq, h]

omit K in
theorem bind_ok {σ α β : Type} {m : M σ α} {f : α → M σ β} {s s' : σ} {a : α} (h : m s = .ok a s') : (m >>= f) s = f a s' := by
  show M.andThen m f s = _
  unfold M.andThen
  rw [h]

omit K in
theorem bind_ub {σ α β : Type} {m : M σ α} {f : α → M σ β} {s : σ} {u : UB} (h : m s = .ub u) : (m >>= f) s = .ub u := by
  show M.andThen m f s = _
  unfold M.andThen
  rw [h]

omit K in
/-- As `BodyRel.bindR`, in two states. -/
theorem bind_at {B B' α α' β β' : Type} {RB : B → B' → Prop} {ρ : α → α' → Prop} {ρ' : β → β' → Prop} {m : M (St L A R B) α} {m' : M (St L A R B') α'} {f : α → M (St L A R B) β}
    {f' : α' → M (St L A R B') β'} {s : St L A R B} {s' : St L A R B'} (h : AlikeRes RB ρ (m s) (m' s')) (h2 : ∀ a b, ρ a b → AlikeM RB ρ' (f a) (f' b)) :
    AlikeRes RB ρ' ((m >>= f) s) ((m' >>= f') s') := by
  show AlikeRes RB ρ' (M.andThen m f s) (M.andThen m' f' s')
  unfold M.andThen
  cases hm : m s <;> cases hm' : m' s' <;> rw [hm, hm'] at h <;> first | exact h.elim | exact h | skip
  exact h2 _ _ h.1 _ _ h.2

/-- A client modifies an object. -/
theorem modifyU_rel (p : Addr) {f : Ty → V → V} {g : Ty → W → W} (hf : ∀ ty v w, Rt ty v w → Rt ty (f ty v) (g ty w)) {α α' : Type} {ρ : α → α' → Prop}
    {k : Unit → M (St L A R (PBody Ty V)) α} {k' : Unit → M (St L A R (PBody Ty W)) α'} (hk : ∀ a, AlikeM (CBRel Rt) ρ (k a) (k' a)) :
    AlikeM (CBRel Rt) ρ (readAny p >>= fun x => writeU p (f x.1 x.2) >>= k) (readAny p >>= fun x => writeU p (g x.1 x.2) >>= k') := by
  intro s s' hs
  rcases blocks hs p with ⟨h1, h2⟩ | ⟨r, t, q, a, b, h1, h2, hab⟩
  · rw [bind_ub (readAny_none h1), bind_ub (readAny_none h2)]; exact rfl
  · rw [bind_ok (readAny_some h1), bind_ok (readAny_some h2)]
    refine bind_at (ρ := Eq) (writeU_at hs p fun r' t' q' u' h => ?_) fun a _ e => e ▸ hk a
    rw [h1] at h
    cases h
    exact hf _ _ _ hab

theorem evalSrcP_rel (u : Src L X) : AlikeM (CBRel Rt) Eq (Polymorphic.evalSrc u : M (St L A R (PBody Ty V)) (Fwd X)) (Polymorphic.evalSrc u) := by
  cases u
  · exact K.pure _
  · exact K.bind (derefP_rel K _) fun _ => K.pure _
  · exact K.bind (derefP_rel K _) fun _ => K.pure _

theorem evalSrcP14_rel (u : Src L X) : AlikeM (CBRel Rt) Eq (Polymorphic14.evalSrc u : M (St L A R (PBody Ty V)) (Fwd X)) (Polymorphic14.evalSrc u) := by
  cases u
  · exact K.pure _
  · exact K.bind (derefP_rel K _) fun _ => K.pure _
  · exact K.bind (derefP_rel K _) fun _ => K.pure _

include H

theorem createMake_rel (a : A) (ty : Ty) (xs : TArgs X) :
    AlikeM (CBRel Rt) Eq (Polymorphic.createControlBlock tr P ty a (fun a m => P.make ty a m xs)) (Polymorphic.createControlBlock tr P' ty a (fun a m => P'.make ty a m xs)) :=
  create_rel K H fun _ _ => H.make _ _ _ _

theorem createFwd_rel (a : A) (ty : Ty) (u : Fwd X) :
    AlikeM (CBRel Rt) Eq (Polymorphic.createControlBlock tr P ty a (fun a m => P.makeFwd ty a m u)) (Polymorphic.createControlBlock tr P' ty a (fun a m => P'.makeFwd ty a m u)) := by
  refine create_rel K H fun _ _ => ?_
  cases u
  · exact H.make _ _ _ _
  · exact H.copyCtor _ _ _ _
  · exact H.moveCtor _ _ _ _

theorem constructP_rel (a : Option A) (k : PCtor L Ty X) : AlikeM (CBRel Rt) Eq (Polymorphic.construct tr P a k) (Polymorphic.construct tr P' a k) := by
  have hd (a : A) : AlikeM (CBRel Rt) Eq (Polymorphic.ctorDefaultA tr P a) (Polymorphic.ctorDefaultA tr P' a) := by
    unfold Polymorphic.ctorDefaultA
    rw [H.base]
    exact K.bind (createMake_rel K H _ _ _) fun _ => K.pure _
  cases a <;> cases k <;> unfold Polymorphic.construct
  case none.default => exact hd _
  case none.from ty u => exact K.bind (evalSrcP_rel K u) fun u => K.bind (createFwd_rel K H _ ty u) fun _ => K.pure _
  case none.inPlace => exact K.bind (createMake_rel K H _ _ _) fun _ => K.pure _
  case none.ilist => exact K.bind (createMake_rel K H _ _ _) fun _ => K.pure _
  case some.default => exact hd _
  case some.from ty u => exact K.bind (evalSrcP_rel K u) fun u => K.bind (createFwd_rel K H _ ty u) fun _ => K.pure _
  case some.inPlace => exact K.bind (createMake_rel K H _ _ _) fun _ => K.pure _
  case some.ilist => exact K.bind (createMake_rel K H _ _ _) fun _ => K.pure _

theorem constructP14_rel (a : Option A) (k : PCtor L Ty X) : AlikeM (CBRel Rt) Eq (Polymorphic14.construct tr P a k) (Polymorphic14.construct tr P' a k) := by
  have hd (a : A) : AlikeM (CBRel Rt) Eq (Polymorphic14.ctorDefaultA tr P a) (Polymorphic14.ctorDefaultA tr P' a) := by
    unfold Polymorphic14.ctorDefaultA
    rw [H.base]
    exact K.bind (createMake_rel K H _ _ _) fun _ => K.pure _
  have hl (a : A) (ty : Ty) (l us : List X) : AlikeM (CBRel Rt) Eq (Polymorphic14.ctorIlistA tr P a ty l us) (Polymorphic14.ctorIlistA tr P' a ty l us) := by
    unfold Polymorphic14.ctorIlistA
    rw [H.base]
    exact K.bind (createMake_rel K H _ _ _) fun _ => K.pure _
  cases a <;> cases k <;> unfold Polymorphic14.construct
  case none.default => exact hd _
  case none.from ty u => exact K.bind (evalSrcP14_rel K u) fun u => K.bind (createFwd_rel K H _ ty u) fun _ => K.pure _
  case none.inPlace => exact K.bind (createMake_rel K H _ _ _) fun _ => K.pure _
  case none.ilist => exact hl _ _ _ _
  case some.default => exact hd _
  case some.from ty u => exact K.bind (evalSrcP14_rel K u) fun u => K.bind (createFwd_rel K H _ ty u) fun _ => K.pure _
  case some.inPlace => exact K.bind (createMake_rel K H _ _ _) fun _ => K.pure _
  case some.ilist => exact hl _ _ _ _

theorem stepP_rel {o : POp L A Ty V X} {o' : POp L A Ty W X} (ho : AlikePOp Rt o o') :
    AlikeM (CBRel Rt) (AlikeOut (TyRel Rt)) (Polymorphic.step tr P o) (Polymorphic.step tr P' o') := by
  cases ho <;> unfold Polymorphic.step
  case make x a k => exact K.bind (constructP_rel K H a k) fun h => K.bind (K.emplace _ _) fun _ => K.pureR (by constructor)
  case copy x y => exact K.bind (K.bind (K.getH y) fun o => ctorCopyAP_rel K H _ y) fun h => K.bind (K.emplace _ _) fun _ => K.pureR (by constructor)
  case copyA x a y => exact K.bind (ctorCopyAP_rel K H a y) fun h => K.bind (K.emplace _ _) fun _ => K.pureR (by constructor)
  case move x y => exact K.bind (K.noexceptIf _ (K.bind (K.getH y) fun o => ctorMoveAP_rel K H _ y)) fun h => K.bind (K.emplace _ _) fun _ => K.pureR (by constructor)
  case moveA x a y => exact K.bind (ctorMoveAP_rel K H a y) fun h => K.bind (K.emplace _ _) fun _ => K.pureR (by constructor)
  case destroy x => exact K.bind (K.noexceptIf _ (K.bind (resetP_rel K H x) fun _ => K.endLife x)) fun _ => K.pureR (by constructor)
  case assignCopy x y => exact K.bind (assignCopyP_rel K H x y) fun _ => K.pureR (by constructor)
  case assignMove x y => exact K.bind (assignMoveP_rel K H x y) fun _ => K.pureR (by constructor)
  case deref x => exact K.bind (derefP_rel K x) fun p => K.bindR (readAny_rel K p) fun _ _ h => K.pureR (.value _ _ h)
  case arrow x => exact K.bind (derefP_rel K x) fun p => K.bindR (readAny_rel K p) fun _ _ h => K.pureR (.value _ _ h)
  case modify x f g hf => exact K.bind (derefP_rel K x) fun p => modifyU_rel K p hf fun _ => K.pureR .unit
  case valueless x => exact K.bind (valueless_rel K x) fun _ => K.pureR (by constructor)
  case getAllocator x => exact K.bind (K.bind (K.getH x) fun _ => K.pure _) fun _ => K.pureR (by constructor)
  case swap x y => exact K.bind (swap_rel K x y) fun _ => K.pureR (by constructor)
  case friendSwap x y => exact K.bind (K.noexceptIf _ (swap_rel K x y)) fun _ => K.pureR (by constructor)

theorem stepP14_rel {o : POp L A Ty V X} {o' : POp L A Ty W X} (ho : AlikePOp Rt o o') :
    AlikeM (CBRel Rt) (AlikeOut (TyRel Rt)) (Polymorphic14.step tr P o) (Polymorphic14.step tr P' o') := by
  cases ho <;> unfold Polymorphic14.step
  case make x a k => exact K.bind (constructP14_rel K H a k) fun h => K.bind (K.emplace _ _) fun _ => K.pureR (by constructor)
  case copy x y => exact K.bind (K.bind (K.getH y) fun o => ctorCopyAP_rel K H _ y) fun h => K.bind (K.emplace _ _) fun _ => K.pureR (by constructor)
  case copyA x a y => exact K.bind (ctorCopyAP_rel K H a y) fun h => K.bind (K.emplace _ _) fun _ => K.pureR (by constructor)
  case move x y => exact K.bind (K.noexceptIf _ (K.bind (K.getH y) fun o => ctorMoveAP14_rel K H _ y)) fun h => K.bind (K.emplace _ _) fun _ => K.pureR (by constructor)
  case moveA x a y => exact K.bind (ctorMoveAP14_rel K H a y) fun h => K.bind (K.emplace _ _) fun _ => K.pureR (by constructor)
  case destroy x => exact K.bind (K.noexceptIf _ (K.bind (resetP_rel K H x) fun _ => K.endLife x)) fun _ => K.pureR (by constructor)
  case assignCopy x y => exact K.bind (assignCopyP_rel K H x y) fun _ => K.pureR (by constructor)
  case assignMove x y => exact K.bind (assignMoveP_rel K H x y) fun _ => K.pureR (by constructor)
  case deref x => exact K.bind (derefP_rel K x) fun p => K.bindR (readAny_rel K p) fun _ _ h => K.pureR (.value _ _ h)
  case arrow x => exact K.bind (derefP_rel K x) fun p => K.bindR (readAny_rel K p) fun _ _ h => K.pureR (.value _ _ h)
  case modify x f g hf => exact K.bind (derefP_rel K x) fun p => modifyU_rel K p hf fun _ => K.pureR .unit
  case valueless x => exact K.bind (valueless_rel K x) fun _ => K.pureR (by constructor)
  case getAllocator x => exact K.bind (K.bind (K.getH x) fun _ => K.pure _) fun _ => K.pureR (by constructor)
  case swap x y => exact K.bind (swap_rel K x y) fun _ => K.pureR (by constructor)
  case friendSwap x y => exact K.bind (K.noexceptIf _ (swap_rel K x y)) fun _ => K.pureR (by constructor)

end
end Verif.Opaque
