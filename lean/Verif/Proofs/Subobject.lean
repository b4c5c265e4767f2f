import Verif.Spec.Subobject
import Verif.Spec.Opaque
import Verif.Proofs.Looking

/-!
# Base class subobjects: the functions of the headers
-/

set_option autoImplicit false
set_option linter.unusedSectionVars false
set_option linter.unusedSimpArgs false

namespace Verif.SubobjectProofs
open Verif Verif.Spec.Subobject
open Verif.Spec.Opaque (AlikeCell)
open Verif.Subobject (Classes Ptr SCB SBody)

section
variable {L A R B B' α β : Type}

/-- As `Spec.Opaque.Alike`, with a relation that depends on the address. -/
structure Alike (RB : Addr → B → B' → Prop) (s : St L A R B) (s' : St L A R B') : Prop where
  hs : s.hs = s'.hs
  heap : ∀ p, AlikeCell (RB p) (s.heap p) (s'.heap p)
  trace : s.trace = s'.trace
  env : s.env = s'.env
  ai : s.ai = s'.ai
  ti : s.ti = s'.ti

def AlikeRes (RB : Addr → B → B' → Prop) (ρ : α → β → Prop) : Res (St L A R B) α → Res (St L A R B') β → Prop
  | .ok a s, .ok b s' => ρ a b ∧ Alike RB s s'
  | .threw e s, .threw e' s' => e = e' ∧ Alike RB s s'
  | .terminated, .terminated => True
  | .ub u, .ub u' => u = u'
  | .diverged, .diverged => True
  | _, _ => False

def AlikeM (RB : Addr → B → B' → Prop) (ρ : α → β → Prop) (m : M (St L A R B) α) (m' : M (St L A R B') β) : Prop :=
  ∀ s s', Alike RB s s' → AlikeRes RB ρ (m s) (m' s')

end

section
variable {L A R B B' α α' β β' : Type} [DecidableEq L] [DecidableEq R] [Body B] [Body B']

/-- Raw storage is related to raw storage, and what is related is occupied on both sides or on neither. -/
structure BodyRel (RB : Addr → B → B' → Prop) : Prop where
  raw : ∀ p, RB p Body.raw Body.raw
  occupied : ∀ p b b', RB p b b' → Body.occupied b = Body.occupied b'

variable {RB : Addr → B → B' → Prop} (K : BodyRel RB)

/-- The cells at an address of states that are alike. -/
theorem cells {s : St L A R B} {s' : St L A R B'} (h : Alike RB s s') (p : Addr) :
    (s.heap p = none ∧ s'.heap p = none) ∨ ∃ r b b', s.heap p = some ⟨r, b⟩ ∧ s'.heap p = some ⟨r, b'⟩ ∧ RB p b b' := by
  have hp := h.heap p
  cases h1 : s.heap p with
  | none =>
    cases h2 : s'.heap p with
    | none => exact .inl ⟨rfl, rfl⟩
    | some c' => rw [h1, h2] at hp; exact hp.elim
  | some c =>
    cases h2 : s'.heap p with
    | none => rw [h1, h2] at hp; exact hp.elim
    | some c' =>
      rw [h1, h2] at hp
      obtain ⟨r, b⟩ := c
      obtain ⟨r', b'⟩ := c'
      obtain ⟨hr, hb⟩ := hp
      cases hr
      exact .inr ⟨r, b, b', rfl, rfl, hb⟩

theorem upd_heap {h : Addr → Option (Cell R B)} {h' : Addr → Option (Cell R B')} (hh : ∀ p, AlikeCell (RB p) (h p) (h' p)) (q : Addr) {c : Option (Cell R B)} {c' : Option (Cell R B')}
    (hc : AlikeCell (RB q) c c') (p : Addr) : AlikeCell (RB p) (upd h q c p) (upd h' q c' p) := by
  unfold upd
  by_cases e : p = q
  · cases e; rw [if_pos rfl, if_pos rfl]; exact hc
  · rw [if_neg e, if_neg e]; exact hh p

include K

theorem BodyRel.pureR {ρ : α → α' → Prop} {a : α} {b : α'} (h : ρ a b) : AlikeM (L := L) (A := A) (R := R) RB ρ (Pure.pure a) (Pure.pure b) := fun _ _ hs => ⟨h, hs⟩

theorem BodyRel.pure (a : α) : AlikeM (L := L) (A := A) (R := R) RB Eq (Pure.pure a) (Pure.pure a) := fun _ _ hs => ⟨rfl, hs⟩

theorem BodyRel.undef {ρ : α → α' → Prop} (u : UB) : AlikeM (L := L) (A := A) (R := R) RB ρ (M.undef u) (M.undef u) := fun _ _ _ => rfl

theorem BodyRel.throwE {ρ : α → α' → Prop} (e : Exn) : AlikeM (L := L) (A := A) (R := R) RB ρ (M.throwE e) (M.throwE e) := fun _ _ hs => ⟨rfl, hs⟩

theorem BodyRel.emit (ev : Ev R) : AlikeM (L := L) (A := A) RB Eq (Verif.emit ev) (Verif.emit ev) := fun _ _ hs => ⟨rfl, { hs with trace := congrArg (· ++ [ev]) hs.trace }⟩

theorem BodyRel.choose : AlikeM (L := L) (A := A) (R := R) RB Eq Verif.choose Verif.choose := by
  intro s s' hs
  refine ⟨?_, { hs with ti := congrArg (· + 1) hs.ti }⟩
  rw [hs.env, hs.ti]

theorem BodyRel.getH (l : L) : AlikeM (A := A) (R := R) RB Eq (Verif.getH l) (Verif.getH l) := by
  intro s s' hs
  unfold Verif.getH
  rw [← hs.hs]
  cases s.hs l with
  | none => exact rfl
  | some h => exact ⟨rfl, hs⟩

theorem BodyRel.setP (l : L) (p : Option Addr) : AlikeM (A := A) (R := R) RB Eq (Verif.setP l p) (Verif.setP l p) := by
  intro s s' hs
  unfold Verif.setP
  rw [← hs.hs]
  cases s.hs l with
  | none => exact rfl
  | some h => exact ⟨rfl, { hs with hs := rfl }⟩

theorem BodyRel.setAlloc (l : L) (a : A) : AlikeM (R := R) RB Eq (Verif.setAlloc l a) (Verif.setAlloc l a) := by
  intro s s' hs
  unfold Verif.setAlloc
  rw [← hs.hs]
  cases s.hs l with
  | none => exact rfl
  | some h => exact ⟨rfl, { hs with hs := rfl }⟩

theorem BodyRel.emplace (l : L) (t : Handle A) : AlikeM (R := R) RB Eq (Verif.emplace l t) (Verif.emplace l t) := by
  intro s s' hs
  unfold Verif.emplace
  rw [← hs.hs]
  cases s.hs l with
  | none => exact ⟨rfl, { hs with hs := rfl }⟩
  | some h => exact rfl

theorem BodyRel.endLife (l : L) : AlikeM (A := A) (R := R) RB Eq (Verif.endLife l) (Verif.endLife l) := by
  intro s s' hs
  unfold Verif.endLife
  rw [← hs.hs]
  cases s.hs l with
  | none => exact rfl
  | some h => exact ⟨rfl, { hs with hs := rfl }⟩

theorem BodyRel.allocate (r : R) : AlikeM (L := L) (A := A) RB Eq (Verif.allocate r) (Verif.allocate r) := by
  intro s s' hs
  unfold Verif.allocate
  simp only [← hs.env, ← hs.ai]
  cases s.env.fail s.ai with
  | true => exact ⟨rfl, { hs with env := rfl, ai := rfl }⟩
  | false =>
    rcases cells hs (s.env.pick s.ai) with ⟨h1, h2⟩ | ⟨r', b, b', h1, h2, _⟩
    · simp only [h1, h2]
      exact ⟨rfl, { hs with env := rfl, ai := rfl, heap := upd_heap hs.heap _ ⟨rfl, K.raw _⟩, trace := congrArg (· ++ [.alloc r (s.env.pick s.ai)]) hs.trace }⟩
    · simp only [h1, h2]
      exact ⟨rfl, { hs with env := rfl, ai := rfl }⟩

theorem BodyRel.deallocate (r : R) (p : Addr) : AlikeM (L := L) (A := A) RB Eq (Verif.deallocate r p) (Verif.deallocate r p) := by
  intro s s' hs
  unfold Verif.deallocate
  rcases cells hs p with ⟨h1, h2⟩ | ⟨r', b, b', h1, h2, hb⟩
  · rw [h1, h2]; exact rfl
  · rw [h1, h2]
    simp only [K.occupied p b b' hb]
    by_cases hr : r' ≠ r
    · rw [if_pos hr, if_pos hr]; exact rfl
    · rw [if_neg hr, if_neg hr]
      cases Body.occupied b' with
      | true => exact rfl
      | false => exact ⟨rfl, { hs with heap := upd_heap hs.heap _ trivial, trace := congrArg (· ++ [.dealloc r p]) hs.trace }⟩

theorem BodyRel.readBody (p : Addr) : AlikeM (L := L) (A := A) (R := R) RB (RB p) (Verif.readBody p) (Verif.readBody p) := by
  intro s s' hs
  unfold Verif.readBody
  rcases cells hs p with ⟨h1, h2⟩ | ⟨r', b, b', h1, h2, hb⟩
  · rw [h1, h2]; exact rfl
  · rw [h1, h2]; exact ⟨hb, hs⟩

theorem BodyRel.writeBody (p : Addr) {b : B} {b' : B'} (h : RB p b b') : AlikeM (L := L) (A := A) (R := R) RB Eq (Verif.writeBody p b) (Verif.writeBody p b') := by
  intro s s' hs
  unfold Verif.writeBody
  rcases cells hs p with ⟨h1, h2⟩ | ⟨r', c, c', h1, h2, _⟩
  · rw [h1, h2]; exact rfl
  · rw [h1, h2]; exact ⟨rfl, { hs with heap := upd_heap hs.heap _ ⟨rfl, h⟩ }⟩

theorem BodyRel.bindR {ρ : α → α' → Prop} {ρ' : β → β' → Prop} {m : M (St L A R B) α} {m' : M (St L A R B') α'} {f : α → M (St L A R B) β} {f' : α' → M (St L A R B') β'}
    (h1 : AlikeM RB ρ m m') (h2 : ∀ a b, ρ a b → AlikeM RB ρ' (f a) (f' b)) : AlikeM RB ρ' (m >>= f) (m' >>= f') := by
  intro s s' hs
  show AlikeRes RB ρ' (M.andThen m f s) (M.andThen m' f' s')
  unfold M.andThen
  have h := h1 s s' hs
  cases hm : m s <;> cases hm' : m' s' <;> rw [hm, hm'] at h <;> first | exact h.elim | exact h | skip
  exact h2 _ _ h.1 _ _ h.2

theorem BodyRel.bind {ρ' : β → β' → Prop} {m : M (St L A R B) α} {m' : M (St L A R B') α} {f : α → M (St L A R B) β} {f' : α → M (St L A R B') β'}
    (h1 : AlikeM RB Eq m m') (h2 : ∀ a, AlikeM RB ρ' (f a) (f' a)) : AlikeM RB ρ' (m >>= f) (m' >>= f') :=
  K.bindR h1 fun a _ e => e ▸ h2 a

theorem BodyRel.onThrow {ρ : α → α' → Prop} {m : M (St L A R B) α} {m' : M (St L A R B') α'} {c : M (St L A R B) Unit} {c' : M (St L A R B') Unit} (h1 : AlikeM RB ρ m m')
    (h2 : AlikeM RB Eq c c') : AlikeM RB ρ (M.onThrow m c) (M.onThrow m' c') := by
  intro s s' hs
  unfold M.onThrow
  have h := h1 s s' hs
  cases hm : m s <;> cases hm' : m' s' <;> rw [hm, hm'] at h <;> first | exact h.elim | exact h | skip
  rename_i e t e' t'
  have k := h2 t t' h.2
  simp only
  cases hc : c t <;> cases hc' : c' t' <;> rw [hc, hc'] at k <;> first | exact k.elim | exact ⟨h.1, k.2⟩ | exact k

theorem BodyRel.noexceptIf {ρ : α → α' → Prop} (b : Bool) {m : M (St L A R B) α} {m' : M (St L A R B') α'} (h1 : AlikeM RB ρ m m') :
    AlikeM RB ρ (M.noexceptIf b m) (M.noexceptIf b m') := by
  intro s s' hs
  unfold M.noexceptIf
  have h := h1 s s' hs
  cases hm : m s <;> cases hm' : m' s' <;> rw [hm, hm'] at h <;> first | exact h.elim | exact h | skip
  cases b
  · exact h
  · exact trivial

omit K

theorem BodyRel.ite {ρ : α → α' → Prop} {c : Prop} [Decidable c] {m n : M (St L A R B) α} {m' n' : M (St L A R B') α'} (h1 : AlikeM RB ρ m m') (h2 : AlikeM RB ρ n n') :
    AlikeM RB ρ (if c then m else n) (if c then m' else n') := by
  by_cases hc : c
  · rw [if_pos hc, if_pos hc]; exact h1
  · rw [if_neg hc, if_neg hc]; exact h2

end

section
variable {L A R B B' X : Type} [DecidableEq L] [DecidableEq R] [Body B] [Body B']
variable {tr : ATraits A R} {RB : Addr → B → B' → Prop} (K : BodyRel RB)
include K

theorem deref_rel (l : L) : AlikeM RB Eq (Indirect.deref l : M (St L A R B) Addr) (Indirect.deref l) := by
  unfold Indirect.deref
  refine K.bind (K.getH l) fun t => ?_
  cases t.p with
  | none => exact K.undef _
  | some p => exact K.pure _

theorem valueless_rel (l : L) : AlikeM RB Eq (Indirect.valueless l : M (St L A R B) Bool) (Indirect.valueless l) := K.bind (K.getH l) fun _ => K.pure _

theorem swap_rel (x y : L) : AlikeM RB Eq (Indirect.swap tr x y : M (St L A R B) Unit) (Indirect.swap tr x y) := by
  unfold Indirect.swap
  refine K.noexceptIf _ (K.bind (K.getH x) fun t => K.bind (K.getH y) fun o => BodyRel.ite ?_ (BodyRel.ite ?_ (K.undef _)))
  · exact K.bind (K.setAlloc _ _) fun _ => K.bind (K.setAlloc _ _) fun _ => K.bind (K.setP _ _) fun _ => K.setP _ _
  · exact K.bind (K.setP _ _) fun _ => K.setP _ _

end

/-! ## polymorphic.h -/

section
variable {L A R Ty V X : Type} [DecidableEq L] [DecidableEq R] [DecidableEq Ty]
variable {tr : ATraits A R} {C : Classes Ty}

/-- `p_` points to the `T` of the block at `q`. -/
def PtrRel (C : Classes Ty) (q : Addr) (ty : Ty) : Option Ptr → Option Addr → Prop
  | none, none => True
  | some r, some p => r = ⟨q, C.storage ty + C.base ty⟩ ∧ p = q
  | _, _ => False

/-- A control block and what is left of it when offsets are forgotten. -/
def CBRel (C : Classes Ty) (q : Addr) : SBody Ty V → PBody Ty V → Prop
  | none, none => True
  | some c, some c' => c.ty = c'.ty ∧ PtrRel C q c.ty c.p c'.p ∧ c.u = c'.u
  | _, _ => False

theorem cbRel : BodyRel (CBRel (V := V) C) where
  raw _ := trivial
  occupied p b b' h := by
    cases b <;> cases b' <;> first | rfl | exact h.elim | skip
    exact congrArg Option.isSome h.2.2

/-- As `Spec.Subobject.Objects`. -/
structure AlikeP (C : Classes Ty) (P : POps (St L A R (SBody Ty V)) A Ty X) (P' : POps (St L A R (PBody Ty V)) A Ty X) : Prop where
  base : P.base = P'.base
  make : ∀ ty a d xs, AlikeM (CBRel C) Eq (P.make ty a d xs) (P'.make ty a d xs)
  copyCtor : ∀ ty a d q, AlikeM (CBRel C) Eq (P.copyCtor ty a d q) (P'.copyCtor ty a d q)
  moveCtor : ∀ ty a d q, AlikeM (CBRel C) Eq (P.moveCtor ty a d q) (P'.moveCtor ty a d q)
  dtor : ∀ ty a p, AlikeM (CBRel C) Eq (P.dtor ty a p) (P'.dtor ty a p)
  block : ∀ a q m m', AlikeM (CBRel C) Eq m m' → AlikeM (CBRel C) Eq (P.block a q m) (P'.block a q m')
  made : ∀ ty a d xs s s', P.make ty a d xs s = .ok () s' → Alive ty d s'
  copied : ∀ ty a d q s s', P.copyCtor ty a d q s = .ok () s' → Alive ty d s'
  moved : ∀ ty a d q s s', P.moveCtor ty a d q s = .ok () s' → Alive ty d s'

variable {P : POps (St L A R (SBody Ty V)) A Ty X} {P' : POps (St L A R (PBody Ty V)) A Ty X} (K : BodyRel (CBRel (V := V) C)) (H : AlikeP C P P')
include K

theorem readCB_rel (p : Addr) : AlikeM (L := L) (A := A) (R := R) (CBRel C) (fun c c' => CBRel C p (some c) (some c')) (Subobject.readCB (V := V) p) (readCB p) := by
  unfold readCB Subobject.readCB
  refine K.bindR (K.readBody p) fun b b' h => ?_
  cases b <;> cases b' <;> first | exact h.elim | exact K.undef _ | exact K.pureR h

theorem abortCB_rel (p : Addr) : AlikeM (L := L) (A := A) (R := R) (CBRel C) Eq (Subobject.abortCB (V := V) p) (abortCB p) := by
  unfold abortCB Subobject.abortCB
  refine K.bindR (readCB_rel K p) fun c c' h => ?_
  rw [h.2.2]
  cases c'.u with
  | some _ => exact K.undef _
  | none => exact K.writeBody _ (b := none) (b' := none) trivial

theorem beginCB_rel (ty : Ty) (q : Addr) : AlikeM (L := L) (A := A) (R := R) (CBRel (V := V) C) Eq (Subobject.beginCB ty q) (beginCB ty q) := by
  intro s s' hs
  unfold beginCB Subobject.beginCB
  rcases cells hs q with ⟨h1, h2⟩ | ⟨r, b, b', h1, h2, hb⟩
  · rw [h1, h2]; exact rfl
  · rw [h1, h2]
    cases b <;> cases b' <;> first | exact hb.elim | exact rfl | exact ⟨rfl, { hs with heap := upd_heap hs.heap _ ⟨rfl, rfl, trivial, rfl⟩ }⟩

omit K in
theorem bind_ok {σ α β : Type} {m : M σ α} {f : α → M σ β} {s s' : σ} {a : α} (h : m s = .ok a s') : (m >>= f) s = f a s' := by
  show M.andThen m f s = _
  unfold M.andThen
  rw [h]

omit K in
/-- The conversion from `U*` to `T*` when there is a `U`. -/
theorem upcast_alive {ty : Ty} {q : Addr} {n : Nat} {s : St L A R (SBody Ty V)} (h : Alive ty q s) : Subobject.upcast C ty ⟨q, n⟩ s = .ok ⟨q, n + C.base ty⟩ s := by
  obtain ⟨r, p, v, h⟩ := h
  unfold Subobject.upcast
  cases C.virt ty <;> simp [-bind_pure_comp, Subobject.readU, Subobject.readCB, readBody, M.bind_eq, M.andThen, M.undef, M.pure_eq, h]

omit K in
/-- `p_` is set when there is a `U`. -/
theorem setp_at {ty : Ty} {q : Addr} {s : St L A R (SBody Ty V)} {s' : St L A R (PBody Ty V)} (hs : Alike (CBRel C) s s') (h : Alive ty q s) :
    AlikeRes (CBRel C) Eq ((Subobject.upcast C ty ⟨q, C.storage ty⟩ >>= fun r => Subobject.setCBp q r) s) (setCBp q q s') := by
  rw [bind_ok (upcast_alive h)]
  obtain ⟨r, p, v, h⟩ := h
  rcases cells hs q with ⟨h1, h2⟩ | ⟨r, b, b', h1, h2, hb⟩
  · rw [h] at h1; cases h1
  · rw [h] at h1
    cases h1
    cases b' with
    | none => exact hb.elim
    | some c' =>
      obtain ⟨t', p', u'⟩ := c'
      obtain ⟨ht, hp, hu⟩ := hb
      cases ht
      cases hu
      have e1 : Subobject.setCBp q ⟨q, C.storage ty + C.base ty⟩ s = .ok () { s with heap := upd s.heap q (some ⟨r, some ⟨ty, some ⟨q, C.storage ty + C.base ty⟩, some v⟩⟩) } := by
        simp [-bind_pure_comp, Subobject.setCBp, Subobject.readCB, readBody, writeBody, M.bind_eq, M.andThen, M.undef, M.pure_eq, h]
      have e2 : setCBp q q s' = .ok () { s' with heap := upd s'.heap q (some ⟨r, some ⟨ty, some q, some v⟩⟩) } := by
        simp [-bind_pure_comp, setCBp, readCB, readBody, writeBody, M.bind_eq, M.andThen, M.undef, M.pure_eq, h2]
      rw [e1, e2]
      exact ⟨rfl, { hs with heap := upd_heap hs.heap _ ⟨rfl, rfl, ⟨rfl, rfl⟩, rfl⟩ }⟩

/-- The object is constructed, then `p_` is set. -/
theorem thenSetp_rel {ty : Ty} {q : Addr} {m : M (St L A R (SBody Ty V)) Unit} {m' : M (St L A R (PBody Ty V)) Unit} (h : AlikeM (CBRel C) Eq m m') (ha : ∀ s s', m s = .ok () s' → Alive ty q s') :
    AlikeM (CBRel C) Eq (m >>= fun _ => Subobject.upcast C ty ⟨q, C.storage ty⟩ >>= fun r => Subobject.setCBp q r) (m' >>= fun _ => setCBp q q) := by
  intro s s' hs
  have k := h s s' hs
  show AlikeRes _ _ (M.andThen _ _ s) (M.andThen _ _ s')
  unfold M.andThen
  cases hm : m s <;> cases hm' : m' s' <;> rw [hm, hm'] at k <;> first | exact k.elim | exact k | skip
  exact setp_at k.2 (ha _ _ hm)

include H

theorem resetP_rel (l : L) : AlikeM (CBRel C) Eq (Subobject.Polymorphic.reset tr P l) (Polymorphic.reset tr P' l) := by
  unfold Polymorphic.reset Subobject.Polymorphic.reset
  refine K.noexceptIf _ (K.bind (K.getH l) fun t => ?_)
  cases t.p with
  | none => exact K.pure _
  | some p => exact K.bind (K.bindR (readCB_rel K p) fun c c' h => K.bind (h.1 ▸ H.dtor _ _ _) fun _ => K.deallocate _ _) fun _ => K.setP _ _

theorem create_rel {ty : Ty} {a : A} {k : A → Addr → M (St L A R (SBody Ty V)) Unit} {k' : A → Addr → M (St L A R (PBody Ty V)) Unit}
    (h : ∀ a m, AlikeM (CBRel C) Eq (k a m) (k' a m)) (ha : ∀ a m s s', k a m s = .ok () s' → Alive ty m s') :
    AlikeM (CBRel C) Eq (Subobject.Polymorphic.createControlBlock C tr P ty a k) (Polymorphic.createControlBlock tr P' ty a k') := by
  unfold Polymorphic.createControlBlock Subobject.Polymorphic.createControlBlock
  refine K.bind (K.allocate _) fun m => K.bind (K.onThrow (H.block _ _ _ _ ?_) (K.deallocate _ _)) fun _ => K.pure _
  refine K.bind (beginCB_rel K _ _) fun _ => thenSetp_rel K (K.onThrow (h _ _) (abortCB_rel K m)) fun s s' e => ?_
  unfold M.onThrow at e
  split at e
  · split at e <;> cases e
  · exact ha _ _ _ _ e

theorem vclone_rel (p : Addr) (a : A) : AlikeM (CBRel C) Eq (Subobject.Polymorphic.vclone C tr P p a) (Polymorphic.vclone tr P' p a) := by
  unfold Polymorphic.vclone Subobject.Polymorphic.vclone
  exact K.bindR (readCB_rel K p) fun c c' h => h.1 ▸ create_rel K H (ty := c.ty) (k := fun a m => P.copyCtor c.ty a m p) (k' := fun a m => P'.copyCtor c.ty a m p) (fun _ _ => H.copyCtor _ _ _ _) fun _ _ => H.copied _ _ _ _

theorem vmove_rel (p : Addr) (a : A) : AlikeM (CBRel C) Eq (Subobject.Polymorphic.vmove C tr P p a) (Polymorphic.vmove tr P' p a) := by
  unfold Polymorphic.vmove Subobject.Polymorphic.vmove
  exact K.bindR (readCB_rel K p) fun c c' h => h.1 ▸ create_rel K H (ty := c.ty) (k := fun a m => P.moveCtor c.ty a m p) (k' := fun a m => P'.moveCtor c.ty a m p) (fun _ _ => H.moveCtor _ _ _ _) fun _ _ => H.moved _ _ _ _

theorem ctorCopyAP_rel (a : A) (y : L) : AlikeM (CBRel C) Eq (Subobject.Polymorphic.ctorCopyA C tr P a y) (Polymorphic.ctorCopyA tr P' a y) := by
  unfold Polymorphic.ctorCopyA Subobject.Polymorphic.ctorCopyA
  exact K.bind (valueless_rel K y) fun v => BodyRel.ite (K.bind (deref_rel K y) fun p => K.bind (vclone_rel K H p a) fun _ => K.pure _) (K.pure _)

theorem ctorMoveAP_rel (a : A) (y : L) : AlikeM (CBRel C) Eq (Subobject.Polymorphic.ctorMoveA C tr P a y) (Polymorphic.ctorMoveA tr P' a y) := by
  unfold Polymorphic.ctorMoveA Subobject.Polymorphic.ctorMoveA
  refine K.noexceptIf _ (K.bind (K.getH y) fun o => BodyRel.ite (K.bind (K.setP _ _) fun _ => K.pure _) (BodyRel.ite (K.bind (K.setP _ _) fun _ => K.pure _) ?_))
  exact K.bind (valueless_rel K y) fun v => BodyRel.ite (K.bind (deref_rel K y) fun p => K.bind (vmove_rel K H p a) fun _ => K.pure _) (K.pure _)

theorem ctorMoveAP14_rel (a : A) (y : L) : AlikeM (CBRel C) Eq (Subobject.Polymorphic14.ctorMoveA C tr P a y) (Polymorphic14.ctorMoveA tr P' a y) := by
  unfold Polymorphic14.ctorMoveA Subobject.Polymorphic14.ctorMoveA
  refine K.noexceptIf _ (K.bind (K.getH y) fun o => BodyRel.ite (K.bind (K.setP _ _) fun _ => K.pure _) (BodyRel.ite (K.bind (K.setP _ _) fun _ => K.pure _) ?_))
  exact K.bind (valueless_rel K y) fun v => BodyRel.ite (K.bind (deref_rel K y) fun p => K.bind (vmove_rel K H p a) fun _ => K.pure _) (K.pure _)

theorem tailP_rel (b : Bool) (x y : L) : AlikeM (CBRel C) Eq (if b = true then (getH y >>= fun o => setAlloc x o.alloc >>= fun _ => Pure.pure x) else Pure.pure x : M (St L A R (SBody Ty V)) L)
    (if b = true then (getH y >>= fun o => setAlloc x o.alloc >>= fun _ => Pure.pure x) else Pure.pure x) :=
  BodyRel.ite (K.bind (K.getH _) fun _ => K.bind (K.setAlloc _ _) fun _ => K.pure _) (K.pure _)

theorem assignCopyP_rel (x y : L) : AlikeM (CBRel C) Eq (Subobject.Polymorphic.assignCopy C tr P x y) (Polymorphic.assignCopy tr P' x y) := by
  unfold Polymorphic.assignCopy Subobject.Polymorphic.assignCopy
  refine BodyRel.ite (K.pure _) ?_
  simp only []
  refine K.bind (valueless_rel K y) fun v => BodyRel.ite (K.bind (resetP_rel K H x) fun _ => tailP_rel K H _ x y) ?_
  refine K.bind (deref_rel K y) fun q => K.bind (K.getH x) fun t => K.bind (K.getH y) fun o => ?_
  exact K.bind (vclone_rel K H _ _) fun tmp => K.bind (resetP_rel K H x) fun _ => K.bind (K.setP _ _) fun _ => tailP_rel K H _ x y

theorem assignMoveP_rel (x y : L) : AlikeM (CBRel C) Eq (Subobject.Polymorphic.assignMove C tr P x y) (Polymorphic.assignMove tr P' x y) := by
  unfold Polymorphic.assignMove Subobject.Polymorphic.assignMove
  refine K.noexceptIf _ (BodyRel.ite (K.pure _) ?_)
  simp only []
  refine K.bind (valueless_rel K y) fun v => BodyRel.ite (K.bind (resetP_rel K H x) fun _ => tailP_rel K H _ x y) ?_
  refine K.bind (K.getH x) fun t => K.bind (K.getH y) fun o => BodyRel.ite ?_ ?_
  · exact K.bind (K.setP _ _) fun _ => K.bind (K.setP _ _) fun _ => K.bind (resetP_rel K H y) fun _ => tailP_rel K H _ x y
  · exact K.bind (deref_rel K y) fun q => K.bind (vmove_rel K H _ _) fun tmp => K.bind (resetP_rel K H x) fun _ => K.bind (K.setP _ _) fun _ => tailP_rel K H _ x y

omit H

/-- Client code uses what `operator*` gives it. -/
theorem derefP_rel (l : L) : AlikeM (A := A) (R := R) (CBRel (V := V) C) Eq (Subobject.Polymorphic.deref l >>= fun r => Subobject.locate C r) (Polymorphic.deref l) := by
  intro s s' hs
  unfold Subobject.Polymorphic.deref Subobject.Polymorphic.derefCB Polymorphic.deref Polymorphic.derefCB
  have hh := hs.hs
  cases hx : s.hs l with
  | none =>
    have hx' := hh ▸ hx
    simp [-bind_pure_comp, getH, M.bind_eq, M.andThen, M.undef, M.pure_eq, hx, hx', AlikeRes]
  | some t =>
    have hx' := hh ▸ hx
    cases hp : t.p with
    | none => simp [-bind_pure_comp, getH, M.bind_eq, M.andThen, M.undef, M.pure_eq, hx, hx', hp, AlikeRes]
    | some q =>
      rcases cells hs q with ⟨h1, h2⟩ | ⟨r, b, b', h1, h2, hb⟩
      · simp [-bind_pure_comp, getH, readCB, Subobject.readCB, readBody, M.bind_eq, M.andThen, M.undef, M.pure_eq, hx, hx', hp, h1, h2, AlikeRes]
      · cases b <;> cases b' <;> first | exact hb.elim | skip
        · simp [-bind_pure_comp, getH, readCB, Subobject.readCB, readBody, M.bind_eq, M.andThen, M.undef, M.pure_eq, hx, hx', hp, h1, h2, AlikeRes]
        · rename_i c c'
          obtain ⟨ty, w, u⟩ := c
          obtain ⟨ty', w', u'⟩ := c'
          obtain ⟨ht, hw, hu⟩ := hb
          cases ht
          cases w <;> cases w' <;> first | exact hw.elim | skip
          · simp [-bind_pure_comp, getH, readCB, Subobject.readCB, readBody, M.bind_eq, M.andThen, M.undef, M.pure_eq, hx, hx', hp, h1, h2, AlikeRes]
          · obtain ⟨e1, e2⟩ := hw
            dsimp only at e1
            subst e1
            subst e2
            simp [-bind_pure_comp, getH, readCB, Subobject.readCB, Subobject.locate, readBody, M.bind_eq, M.andThen, M.undef, M.pure_eq, hx, hx', hp, h1, h2, AlikeRes]
            exact hs

/-- What `operator*` gives is used: as `BodyRel.bind`. -/
theorem derefThen_rel {α α' : Type} {ρ : α → α' → Prop} (l : L) {k : Addr → M (St L A R (SBody Ty V)) α} {k' : Addr → M (St L A R (PBody Ty V)) α'}
    (h : ∀ p, AlikeM (CBRel C) ρ (k p) (k' p)) : AlikeM (CBRel C) ρ (Subobject.Polymorphic.deref l >>= fun r => Subobject.locate C r >>= k) (Polymorphic.deref l >>= k') := by
  rw [show (Subobject.Polymorphic.deref l >>= fun r => Subobject.locate C r >>= k) = ((Subobject.Polymorphic.deref l >>= fun r => Subobject.locate C r) >>= k) from (bind_assoc _ _ _).symm]
  exact K.bind (derefP_rel K l) h

theorem readAny_rel (p : Addr) : AlikeM (L := L) (A := A) (R := R) (CBRel C) Eq (Subobject.readAny (V := V) p) (readAny p) := by
  unfold readAny Subobject.readAny
  refine K.bindR (readCB_rel K p) fun c c' h => ?_
  rw [h.2.2, h.1]
  cases c'.u with
  | none => exact K.undef _
  | some v => exact K.pure _

theorem readU_rel (ty : Ty) (p : Addr) : AlikeM (L := L) (A := A) (R := R) (CBRel C) Eq (Subobject.readU (V := V) ty p) (readU ty p) := by
  unfold readU Subobject.readU
  refine K.bindR (readCB_rel K p) fun c c' h => ?_
  rw [h.2.2, h.1]
  cases c'.u with
  | none => exact K.undef _
  | some v => exact BodyRel.ite (K.pure _) (K.undef _)

theorem writeU_rel (p : Addr) (v : V) : AlikeM (L := L) (A := A) (R := R) (CBRel (Ty := Ty) C) Eq (Subobject.writeU p v) (writeU p v) := by
  unfold writeU Subobject.writeU
  refine K.bindR (readCB_rel K p) fun c c' h => ?_
  rw [h.2.2]
  cases c'.u with
  | none => exact K.undef _
  | some _ => exact K.writeBody p (b := some { c with u := some v }) (b' := some { c' with u := some v }) ⟨h.1, h.2.1, rfl⟩

theorem evalSrcP_rel (u : Src L X) : AlikeM (CBRel C) Eq (Subobject.Polymorphic.evalSrc C u : M (St L A R (SBody Ty V)) (Fwd X)) (Polymorphic.evalSrc u) := by
  cases u
  · exact K.pure _
  · exact derefThen_rel K _ fun _ => K.pure _
  · exact derefThen_rel K _ fun _ => K.pure _

theorem evalSrcP14_rel (u : Src L X) : AlikeM (CBRel C) Eq (Subobject.Polymorphic14.evalSrc C u : M (St L A R (SBody Ty V)) (Fwd X)) (Polymorphic14.evalSrc u) := by
  cases u
  · exact K.pure _
  · exact derefThen_rel K _ fun _ => K.pure _
  · exact derefThen_rel K _ fun _ => K.pure _

include H

theorem createMake_rel (a : A) (ty : Ty) (xs : TArgs X) :
    AlikeM (CBRel C) Eq (Subobject.Polymorphic.createControlBlock C tr P ty a (fun a m => P.make ty a m xs)) (Polymorphic.createControlBlock tr P' ty a (fun a m => P'.make ty a m xs)) :=
  create_rel K H (fun _ _ => H.make _ _ _ _) fun _ _ => H.made _ _ _ _

theorem createFwd_rel (a : A) (ty : Ty) (u : Fwd X) :
    AlikeM (CBRel C) Eq (Subobject.Polymorphic.createControlBlock C tr P ty a (fun a m => P.makeFwd ty a m u)) (Polymorphic.createControlBlock tr P' ty a (fun a m => P'.makeFwd ty a m u)) := by
  cases u
  · exact create_rel K H (fun _ _ => H.make _ _ _ _) fun _ _ => H.made _ _ _ _
  · exact create_rel K H (fun _ _ => H.copyCtor _ _ _ _) fun _ _ => H.copied _ _ _ _
  · exact create_rel K H (fun _ _ => H.moveCtor _ _ _ _) fun _ _ => H.moved _ _ _ _

theorem constructP_rel (a : Option A) (k : PCtor L Ty X) : AlikeM (CBRel C) Eq (Subobject.Polymorphic.construct C tr P a k) (Polymorphic.construct tr P' a k) := by
  have hd (a : A) : AlikeM (CBRel C) Eq (Subobject.Polymorphic.ctorDefaultA C tr P a) (Polymorphic.ctorDefaultA tr P' a) := by
    unfold Polymorphic.ctorDefaultA Subobject.Polymorphic.ctorDefaultA
    rw [H.base]
    exact K.bind (createMake_rel K H _ _ _) fun _ => K.pure _
  cases a <;> cases k <;> unfold Polymorphic.construct Subobject.Polymorphic.construct
  case none.default => exact hd _
  case none.from ty u => exact K.bind (evalSrcP_rel K u) fun u => K.bind (createFwd_rel K H _ ty u) fun _ => K.pure _
  case none.inPlace => exact K.bind (createMake_rel K H _ _ _) fun _ => K.pure _
  case none.ilist => exact K.bind (createMake_rel K H _ _ _) fun _ => K.pure _
  case some.default => exact hd _
  case some.from ty u => exact K.bind (evalSrcP_rel K u) fun u => K.bind (createFwd_rel K H _ ty u) fun _ => K.pure _
  case some.inPlace => exact K.bind (createMake_rel K H _ _ _) fun _ => K.pure _
  case some.ilist => exact K.bind (createMake_rel K H _ _ _) fun _ => K.pure _

theorem constructP14_rel (a : Option A) (k : PCtor L Ty X) : AlikeM (CBRel C) Eq (Subobject.Polymorphic14.construct C tr P a k) (Polymorphic14.construct tr P' a k) := by
  have hd (a : A) : AlikeM (CBRel C) Eq (Subobject.Polymorphic14.ctorDefaultA C tr P a) (Polymorphic14.ctorDefaultA tr P' a) := by
    unfold Polymorphic14.ctorDefaultA Subobject.Polymorphic14.ctorDefaultA
    rw [H.base]
    exact K.bind (createMake_rel K H _ _ _) fun _ => K.pure _
  have hl (a : A) (ty : Ty) (l us : List X) : AlikeM (CBRel C) Eq (Subobject.Polymorphic14.ctorIlistA C tr P a ty l us) (Polymorphic14.ctorIlistA tr P' a ty l us) := by
    unfold Polymorphic14.ctorIlistA Subobject.Polymorphic14.ctorIlistA
    rw [H.base]
    exact K.bind (createMake_rel K H _ _ _) fun _ => K.pure _
  cases a <;> cases k <;> unfold Polymorphic14.construct Subobject.Polymorphic14.construct
  case none.default => exact hd _
  case none.from ty u => exact K.bind (evalSrcP14_rel K u) fun u => K.bind (createFwd_rel K H _ ty u) fun _ => K.pure _
  case none.inPlace => exact K.bind (createMake_rel K H _ _ _) fun _ => K.pure _
  case none.ilist => exact hl _ _ _ _
  case some.default => exact hd _
  case some.from ty u => exact K.bind (evalSrcP14_rel K u) fun u => K.bind (createFwd_rel K H _ ty u) fun _ => K.pure _
  case some.inPlace => exact K.bind (createMake_rel K H _ _ _) fun _ => K.pure _
  case some.ilist => exact hl _ _ _ _

theorem stepP_rel (o : POp L A Ty V X) :
    AlikeM (CBRel C) Eq (Subobject.Polymorphic.step C tr P o) (Polymorphic.step tr P' o) := by
  cases o <;> unfold Polymorphic.step Subobject.Polymorphic.step
  case make x a k => exact K.bind (constructP_rel K H a k) fun h => K.bind (K.emplace _ _) fun _ => K.pure _
  case copy x y => exact K.bind (K.bind (K.getH y) fun o => ctorCopyAP_rel K H _ y) fun h => K.bind (K.emplace _ _) fun _ => K.pure _
  case copyA x a y => exact K.bind (ctorCopyAP_rel K H a y) fun h => K.bind (K.emplace _ _) fun _ => K.pure _
  case move x y => exact K.bind (K.noexceptIf _ (K.bind (K.getH y) fun o => ctorMoveAP_rel K H _ y)) fun h => K.bind (K.emplace _ _) fun _ => K.pure _
  case moveA x a y => exact K.bind (ctorMoveAP_rel K H a y) fun h => K.bind (K.emplace _ _) fun _ => K.pure _
  case destroy x => exact K.bind (K.noexceptIf _ (K.bind (resetP_rel K H x) fun _ => K.endLife x)) fun _ => K.pure _
  case assignCopy x y => exact K.bind (assignCopyP_rel K H x y) fun _ => K.pure _
  case assignMove x y => exact K.bind (assignMoveP_rel K H x y) fun _ => K.pure _
  case deref x => exact derefThen_rel K x fun p => K.bind (readAny_rel K p) fun _ => K.pure _
  case arrow x => exact derefThen_rel K x fun p => K.bind (readAny_rel K p) fun _ => K.pure _
  case modify x f => exact derefThen_rel K x fun p => K.bind (readAny_rel K p) fun _ => K.bind (writeU_rel K p _) fun _ => K.pure _
  case valueless x => exact K.bind (valueless_rel K x) fun _ => K.pure _
  case getAllocator x => exact K.bind (K.bind (K.getH x) fun _ => K.pure _) fun _ => K.pure _
  case swap x y => exact K.bind (swap_rel K x y) fun _ => K.pure _
  case friendSwap x y => exact K.bind (K.noexceptIf _ (swap_rel K x y)) fun _ => K.pure _

theorem stepP14_rel (o : POp L A Ty V X) :
    AlikeM (CBRel C) Eq (Subobject.Polymorphic14.step C tr P o) (Polymorphic14.step tr P' o) := by
  cases o <;> unfold Polymorphic14.step Subobject.Polymorphic14.step
  case make x a k => exact K.bind (constructP14_rel K H a k) fun h => K.bind (K.emplace _ _) fun _ => K.pure _
  case copy x y => exact K.bind (K.bind (K.getH y) fun o => ctorCopyAP_rel K H _ y) fun h => K.bind (K.emplace _ _) fun _ => K.pure _
  case copyA x a y => exact K.bind (ctorCopyAP_rel K H a y) fun h => K.bind (K.emplace _ _) fun _ => K.pure _
  case move x y => exact K.bind (K.noexceptIf _ (K.bind (K.getH y) fun o => ctorMoveAP14_rel K H _ y)) fun h => K.bind (K.emplace _ _) fun _ => K.pure _
  case moveA x a y => exact K.bind (ctorMoveAP14_rel K H a y) fun h => K.bind (K.emplace _ _) fun _ => K.pure _
  case destroy x => exact K.bind (K.noexceptIf _ (K.bind (resetP_rel K H x) fun _ => K.endLife x)) fun _ => K.pure _
  case assignCopy x y => exact K.bind (assignCopyP_rel K H x y) fun _ => K.pure _
  case assignMove x y => exact K.bind (assignMoveP_rel K H x y) fun _ => K.pure _
  case deref x => exact derefThen_rel K x fun p => K.bind (readAny_rel K p) fun _ => K.pure _
  case arrow x => exact derefThen_rel K x fun p => K.bind (readAny_rel K p) fun _ => K.pure _
  case modify x f => exact derefThen_rel K x fun p => K.bind (readAny_rel K p) fun _ => K.bind (writeU_rel K p _) fun _ => K.pure _
  case valueless x => exact K.bind (valueless_rel K x) fun _ => K.pure _
  case getAllocator x => exact K.bind (K.bind (K.getH x) fun _ => K.pure _) fun _ => K.pure _
  case swap x y => exact K.bind (swap_rel K x y) fun _ => K.pure _
  case friendSwap x y => exact K.bind (K.noexceptIf _ (swap_rel K x y)) fun _ => K.pure _

end
end Verif.SubobjectProofs
