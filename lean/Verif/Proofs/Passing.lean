import Verif.Spec.Passing
import Verif.Proofs.Looking

/-!
# Relations between computations that the functions of the headers respect
-/

set_option autoImplicit false
set_option linter.unusedSectionVars false
set_option linter.unusedSimpArgs false

namespace Verif.Passing
open Verif Verif.Spec.Passing

section
variable {L A R B : Type} [DecidableEq L] [DecidableEq R] [Body B]

/-- A relation that the primitive computations respect, and that is kept when computations are put together. -/
structure Cong (L A R B : Type) [DecidableEq L] [DecidableEq R] [Body B] (rel : ∀ {α : Type}, M (St L A R B) α → M (St L A R B) α → Prop) : Prop where
  pure : ∀ {α : Type} (a : α), rel (Pure.pure a) (Pure.pure a)
  undef : ∀ {α : Type} (u : UB), rel (M.undef u : M (St L A R B) α) (M.undef u)
  getH : ∀ l, rel (getH l) (getH l)
  setP : ∀ l p, rel (setP l p) (setP l p)
  setAlloc : ∀ l a, rel (setAlloc l a) (setAlloc l a)
  emplace : ∀ l h, rel (emplace l h) (emplace l h)
  endLife : ∀ l, rel (endLife l) (endLife l)
  allocate : ∀ r, rel (allocate r) (allocate r)
  deallocate : ∀ r p, rel (deallocate r p) (deallocate r p)
  readBody : ∀ p, rel (readBody p) (readBody p)
  writeBody : ∀ p b, rel (writeBody p b) (writeBody p b)
  bind : ∀ {α β : Type} {m m' : M (St L A R B) α} {f f' : α → M (St L A R B) β}, rel m m' → (∀ a, rel (f a) (f' a)) → rel (m >>= f) (m' >>= f')
  onThrow : ∀ {α : Type} {m m' : M (St L A R B) α} {c c' : M (St L A R B) Unit}, rel m m' → rel c c' → rel (M.onThrow m c) (M.onThrow m' c')
  noexceptIf : ∀ {α : Type} (b : Bool) {m m' : M (St L A R B) α}, rel m m' → rel (M.noexceptIf b m) (M.noexceptIf b m')

theorem Cong.ite {rel : ∀ {α : Type}, M (St L A R B) α → M (St L A R B) α → Prop} {α : Type} {c : Prop} [Decidable c] {m m' n n' : M (St L A R B) α} (h1 : rel m m')
    (h2 : rel n n') : rel (if c then m else n) (if c then m' else n') := by
  by_cases hc : c
  · rw [if_pos hc, if_pos hc]; exact h1
  · rw [if_neg hc, if_neg hc]; exact h2

end

/-! ## indirect.h -/

section
variable {L A R B X : Type} [DecidableEq L] [DecidableEq R] [Body B]
variable {tr : ATraits A R} {rel : ∀ {α : Type}, M (St L A R B) α → M (St L A R B) α → Prop}

/-- Types with related functions. -/
structure RelT (tr : ATraits A R) (rel : ∀ {α : Type}, M (St L A R B) α → M (St L A R B) α → Prop) (T T' : TOps (St L A R B) A X) : Prop where
  make : ∀ a d xs, rel (T.make a d xs) (T'.make a d xs)
  copyCtor : ∀ a d q, rel (T.copyCtor a d q) (T'.copyCtor a d q)
  moveCtor : ∀ a d q, rel (T.moveCtor a d q) (T'.moveCtor a d q)
  copyAssign : ∀ d q, rel (T.copyAssign d q) (T'.copyAssign d q)
  moveAssign : ∀ d q, rel (T.moveAssign d q) (T'.moveAssign d q)
  assignArg : ∀ d x, rel (T.assignArg d x) (T'.assignArg d x)
  reset : ∀ l, rel (Indirect.reset tr T l) (Indirect.reset tr T' l)
  assignable : T.assignable = T'.assignable
  copyAssignable : T.copyAssignable = T'.copyAssignable

variable {T T' : TOps (St L A R B) A X} (K : Cong L A R B rel) (H : RelT tr rel T T')
include K

theorem makeFwd_rel (H : RelT tr rel T T') (a : A) (m : Addr) (u : Fwd X) : rel (T.makeFwd a m u) (T'.makeFwd a m u) := by
  cases u
  · exact H.make _ _ _
  · exact H.copyCtor _ _ _
  · exact H.moveCtor _ _ _

theorem assignFwd_rel (H : RelT tr rel T T') (m : Addr) (u : Fwd X) : rel (T.assignFwd m u) (T'.assignFwd m u) := by
  cases u
  · exact H.assignArg _ _
  · exact H.copyAssign _ _
  · exact H.moveAssign _ _

theorem constructFrom_rel {a : A} {k k' : A → Addr → M (St L A R B) Unit} (h : ∀ a m, rel (k a m) (k' a m)) : rel (Indirect.constructFrom tr a k) (Indirect.constructFrom tr a k') := by
  unfold Indirect.constructFrom
  exact K.bind (K.allocate _) fun m => K.bind (K.onThrow (h _ _) (K.deallocate _ _)) fun _ => K.pure _

theorem deref_rel (l : L) : rel (Indirect.deref l : M (St L A R B) Addr) (Indirect.deref l) := by
  unfold Indirect.deref
  refine K.bind (K.getH l) fun t => ?_
  cases t.p with
  | none => exact K.undef _
  | some p => exact K.pure _

theorem valueless_rel (l : L) : rel (Indirect.valueless l : M (St L A R B) Bool) (Indirect.valueless l) := K.bind (K.getH l) fun _ => K.pure _

theorem reset_rel (h : ∀ a p, rel (T.dtor a p) (T'.dtor a p)) (l : L) : rel (Indirect.reset tr T l) (Indirect.reset tr T' l) := by
  unfold Indirect.reset
  refine K.noexceptIf _ (K.bind (K.getH l) fun t => ?_)
  cases t.p with
  | none => exact K.pure _
  | some p => exact K.bind (K.bind (h _ _) fun _ => K.deallocate _ _) fun _ => K.setP _ _

include H

theorem ctorCopyA_rel (a : A) (y : L) : rel (Indirect.ctorCopyA tr T a y) (Indirect.ctorCopyA tr T' a y) := by
  unfold Indirect.ctorCopyA
  refine K.bind (valueless_rel K y) fun v => Cong.ite (K.pure _) ?_
  exact K.bind (deref_rel K y) fun q => K.bind (constructFrom_rel K fun a m => H.copyCtor _ _ _) fun _ => K.pure _

theorem ctorMoveA_rel (a : A) (y : L) : rel (Indirect.ctorMoveA tr T a y) (Indirect.ctorMoveA tr T' a y) := by
  unfold Indirect.ctorMoveA
  refine K.noexceptIf _ (K.bind (K.getH y) fun o => Cong.ite (K.bind (K.setP _ _) fun _ => K.pure _) (Cong.ite (K.bind (K.setP _ _) fun _ => K.pure _) ?_))
  refine K.bind (valueless_rel K y) fun v => Cong.ite ?_ (K.pure _)
  exact K.bind (deref_rel K y) fun q => K.bind (constructFrom_rel K fun a m => H.moveCtor _ _ _) fun _ => K.pure _

theorem tail_rel (b : Bool) (x y : L) : rel (if b = true then (getH y >>= fun o => setAlloc x o.alloc >>= fun _ => Pure.pure x) else Pure.pure x : M (St L A R B) L)
    (if b = true then (getH y >>= fun o => setAlloc x o.alloc >>= fun _ => Pure.pure x) else Pure.pure x) :=
  Cong.ite (K.bind (K.getH _) fun _ => K.bind (K.setAlloc _ _) fun _ => K.pure _) (K.pure _)

theorem assignCopy_rel (x y : L) : rel (Indirect.assignCopy tr T x y) (Indirect.assignCopy tr T' x y) := by
  unfold Indirect.assignCopy
  refine Cong.ite (K.pure _) ?_
  simp only []
  refine K.bind (valueless_rel K y) fun v => Cong.ite (K.bind (H.reset x) fun _ => tail_rel K H _ x y) ?_
  refine K.bind (K.getH x) fun t => K.bind (K.getH y) fun o => ?_
  rw [H.assignable]
  refine Cong.ite ?_ ?_
  · exact K.bind (deref_rel K x) fun d => K.bind (deref_rel K y) fun q => K.bind (H.copyAssign _ _) fun _ => tail_rel K H _ x y
  · exact K.bind (deref_rel K y) fun q => K.bind (constructFrom_rel K fun a m => H.copyCtor _ _ _) fun tmp => K.bind (H.reset x) fun _ => K.bind (K.setP _ _) fun _ => tail_rel K H _ x y

theorem assignMove_rel (x y : L) : rel (Indirect.assignMove tr T x y) (Indirect.assignMove tr T' x y) := by
  unfold Indirect.assignMove
  refine K.noexceptIf _ (Cong.ite (K.pure _) ?_)
  simp only []
  refine K.bind (valueless_rel K y) fun v => Cong.ite (K.bind (H.reset x) fun _ => tail_rel K H _ x y) ?_
  refine K.bind (K.getH x) fun t => K.bind (K.getH y) fun o => Cong.ite ?_ ?_
  · exact K.bind (K.setP _ _) fun _ => K.bind (K.setP _ _) fun _ => K.bind (H.reset y) fun _ => tail_rel K H _ x y
  · exact K.bind (deref_rel K y) fun q => K.bind (constructFrom_rel K fun a m => H.moveCtor _ _ _) fun tmp => K.bind (H.reset x) fun _ => K.bind (K.setP _ _) fun _ => tail_rel K H _ x y

theorem assignFrom_rel (x : L) (u : Fwd X) : rel (Indirect.assignFrom tr T x u) (Indirect.assignFrom tr T' x u) := by
  unfold Indirect.assignFrom
  simp only []
  refine K.bind (valueless_rel K x) fun v => Cong.ite ?_ ?_
  · exact K.bind (K.getH x) fun t => K.bind (constructFrom_rel K fun a m => makeFwd_rel K H a m u) fun p => K.bind (K.setP _ _) fun _ => K.pure _
  · exact K.bind (deref_rel K x) fun d => K.bind (assignFwd_rel K H d u) fun _ => K.pure _

omit H

theorem swap_rel (x y : L) : rel (Indirect.swap tr x y : M (St L A R B) Unit) (Indirect.swap tr x y) := by
  unfold Indirect.swap
  refine K.noexceptIf _ (K.bind (K.getH x) fun t => K.bind (K.getH y) fun o => Cong.ite ?_ (Cong.ite ?_ (K.undef _)))
  · exact K.bind (K.setAlloc _ _) fun _ => K.bind (K.setAlloc _ _) fun _ => K.bind (K.setP _ _) fun _ => K.setP _ _
  · exact K.bind (K.setP _ _) fun _ => K.setP _ _

end

section
variable {L A R V X : Type} [DecidableEq L] [DecidableEq R]
variable {tr : ATraits A R} {rel : ∀ {α : Type}, M (St L A R (Obj V)) α → M (St L A R (Obj V)) α → Prop}
variable {T T' : TOps (St L A R (Obj V)) A X} (K : Cong L A R (Obj V) rel) (H : RelT tr rel T T')
include K

theorem evalSrc_rel (u : Src L X) : rel (Indirect.evalSrc u : M (St L A R (Obj V)) (Fwd X)) (Indirect.evalSrc u) := by
  cases u
  · exact K.pure _
  · exact K.bind (deref_rel K _) fun _ => K.pure _
  · exact K.bind (deref_rel K _) fun _ => K.pure _

theorem readObj_rel (p : Addr) : rel (readObj p : M (St L A R (Obj V)) V) (readObj p) := by
  unfold readObj
  refine K.bind (K.readBody _) fun b => ?_
  cases b with
  | none => exact K.undef _
  | some v => exact K.pure _

include H

theorem construct_rel (a : Option A) (k : Ctor L X) : rel (Indirect.construct tr T a k) (Indirect.construct tr T' a k) := by
  have hm (a : A) (xs : TArgs X) := constructFrom_rel (tr := tr) (a := a) K (fun a m => H.make a m xs)
  have hf (a : A) (u : Fwd X) := constructFrom_rel (tr := tr) (a := a) K (fun a m => makeFwd_rel K H a m u)
  cases a <;> cases k <;> unfold Indirect.construct
  case none.default => exact K.bind (hm _ _) fun _ => K.pure _
  case none.from u => exact K.bind (evalSrc_rel K u) fun u => K.bind (hf _ u) fun _ => K.pure _
  case none.inPlace us => exact K.bind (hm _ _) fun _ => K.pure _
  case none.inPlaceOne u => exact K.bind (evalSrc_rel K u) fun u => K.bind (hf _ u) fun _ => K.pure _
  case none.ilist => exact K.bind (hm _ _) fun _ => K.pure _
  case some.default => exact K.bind (hm _ _) fun _ => K.pure _
  case some.from u => exact K.bind (evalSrc_rel K u) fun u => K.bind (hf _ u) fun _ => K.pure _
  case some.inPlace us => exact K.bind (hm _ _) fun _ => K.pure _
  case some.inPlaceOne u => exact K.bind (evalSrc_rel K u) fun u => K.bind (hf _ u) fun _ => K.pure _
  case some.ilist => exact K.bind (hm _ _) fun _ => K.pure _

theorem step_rel (o : Op L A V X) : rel (Indirect.step tr T o) (Indirect.step tr T' o) := by
  cases o <;> unfold Indirect.step
  case make x a k => exact K.bind (construct_rel K H a k) fun h => K.bind (K.emplace _ _) fun _ => K.pure _
  case copy x y => exact K.bind (K.bind (K.getH y) fun o => ctorCopyA_rel K H _ y) fun h => K.bind (K.emplace _ _) fun _ => K.pure _
  case copyA x a y => exact K.bind (ctorCopyA_rel K H a y) fun h => K.bind (K.emplace _ _) fun _ => K.pure _
  case move x y => exact K.bind (K.noexceptIf _ (K.bind (K.getH y) fun o => ctorMoveA_rel K H _ y)) fun h => K.bind (K.emplace _ _) fun _ => K.pure _
  case moveA x a y => exact K.bind (ctorMoveA_rel K H a y) fun h => K.bind (K.emplace _ _) fun _ => K.pure _
  case destroy x => exact K.bind (K.noexceptIf _ (K.bind (H.reset x) fun _ => K.endLife x)) fun _ => K.pure _
  case assignCopy x y => exact K.bind (assignCopy_rel K H x y) fun _ => K.pure _
  case assignMove x y => exact K.bind (assignMove_rel K H x y) fun _ => K.pure _
  case assignFrom x u => exact K.bind (evalSrc_rel K u) fun u => K.bind (assignFrom_rel K H x u) fun _ => K.pure _
  case deref x => exact K.bind (deref_rel K x) fun p => K.bind (readObj_rel K p) fun _ => K.pure _
  case arrow x => exact K.bind (deref_rel K x) fun p => K.bind (readObj_rel K p) fun _ => K.pure _
  case modify x f => exact K.bind (deref_rel K x) fun p => K.bind (readObj_rel K p) fun _ => K.bind (K.bind (readObj_rel K p) fun _ => K.writeBody _ _) fun _ => K.pure _
  case valueless x => exact K.bind (valueless_rel K x) fun _ => K.pure _
  case getAllocator x => exact K.bind (K.bind (K.getH x) fun _ => K.pure _) fun _ => K.pure _
  case swap x y => exact K.bind (swap_rel K x y) fun _ => K.pure _
  case friendSwap x y => exact K.bind (K.noexceptIf _ (swap_rel K x y)) fun _ => K.pure _

theorem step14_rel (o : Op L A V X) : rel (Indirect14.step tr T o) (Indirect14.step tr T' o) := by
  rw [Looking.step14, Looking.step14]
  refine step_rel K ?_ o
  exact { H with assignable := H.copyAssignable }

end

/-! ## polymorphic.h -/

section
variable {L A R Ty V X : Type} [DecidableEq L] [DecidableEq R] [DecidableEq Ty]
variable {tr : ATraits A R} {rel : ∀ {α : Type}, M (St L A R (PBody Ty V)) α → M (St L A R (PBody Ty V)) α → Prop}

/-- Types with related functions. -/
structure RelP (tr : ATraits A R) (rel : ∀ {α : Type}, M (St L A R (PBody Ty V)) α → M (St L A R (PBody Ty V)) α → Prop) (P P' : POps (St L A R (PBody Ty V)) A Ty X) : Prop where
  make : ∀ ty a d xs, rel (P.make ty a d xs) (P'.make ty a d xs)
  copyCtor : ∀ ty a d q, rel (P.copyCtor ty a d q) (P'.copyCtor ty a d q)
  moveCtor : ∀ ty a d q, rel (P.moveCtor ty a d q) (P'.moveCtor ty a d q)
  reset : ∀ l, rel (Polymorphic.reset tr P l) (Polymorphic.reset tr P' l)
  base : P.base = P'.base
  block : DefaultBlock P
  block' : DefaultBlock P'
  /-- the relation is respected by the start of a control block -/
  begin : ∀ ty q, rel (beginCB ty q) (beginCB ty q)

variable {P P' : POps (St L A R (PBody Ty V)) A Ty X} (K : Cong L A R (PBody Ty V) rel) (H : RelP tr rel P P')
include K

theorem readCB_rel (p : Addr) : rel (readCB p : M (St L A R (PBody Ty V)) (CB Ty V)) (readCB p) := by
  unfold readCB
  refine K.bind (K.readBody p) fun b => ?_
  cases b with
  | none => exact K.undef _
  | some c => exact K.pure _

theorem abortCB_rel (p : Addr) : rel (abortCB p : M (St L A R (PBody Ty V)) Unit) (abortCB p) := by
  unfold abortCB
  refine K.bind (readCB_rel K p) fun c => ?_
  cases c.u with
  | none => exact K.writeBody _ _
  | some v => exact K.undef _

theorem resetP_rel (h : ∀ ty a p, rel (P.dtor ty a p) (P'.dtor ty a p)) (l : L) : rel (Polymorphic.reset tr P l) (Polymorphic.reset tr P' l) := by
  unfold Polymorphic.reset
  refine K.noexceptIf _ (K.bind (K.getH l) fun t => ?_)
  cases t.p with
  | none => exact K.pure _
  | some p => exact K.bind (K.bind (readCB_rel K p) fun c => K.bind (h _ _ _) fun _ => K.deallocate _ _) fun _ => K.setP _ _

include H

theorem create_rel {ty : Ty} {a : A} {k k' : A → Addr → M (St L A R (PBody Ty V)) Unit} (h : ∀ a m, rel (k a m) (k' a m)) :
    rel (Polymorphic.createControlBlock tr P ty a k) (Polymorphic.createControlBlock tr P' ty a k') := by
  unfold Polymorphic.createControlBlock
  refine K.bind (K.allocate _) fun m => ?_
  rw [H.block, H.block']
  exact K.bind (K.onThrow (K.bind (H.begin _ _) fun _ => K.bind (K.onThrow (h _ _) (abortCB_rel K m)) fun _ => K.bind (readCB_rel K m) fun _ => K.writeBody _ _) (K.deallocate _ _))
    fun _ => K.pure _

theorem vclone_rel (p : Addr) (a : A) : rel (Polymorphic.vclone tr P p a) (Polymorphic.vclone tr P' p a) := by
  unfold Polymorphic.vclone
  exact K.bind (readCB_rel K p) fun c => create_rel K H (ty := c.ty) (k := fun a m => P.copyCtor c.ty a m p) (k' := fun a m => P'.copyCtor c.ty a m p) fun _ _ => H.copyCtor _ _ _ _

theorem vmove_rel (p : Addr) (a : A) : rel (Polymorphic.vmove tr P p a) (Polymorphic.vmove tr P' p a) := by
  unfold Polymorphic.vmove
  exact K.bind (readCB_rel K p) fun c => create_rel K H (ty := c.ty) (k := fun a m => P.moveCtor c.ty a m p) (k' := fun a m => P'.moveCtor c.ty a m p) fun _ _ => H.moveCtor _ _ _ _

theorem ctorCopyAP_rel (a : A) (y : L) : rel (Polymorphic.ctorCopyA tr P a y) (Polymorphic.ctorCopyA tr P' a y) := by
  unfold Polymorphic.ctorCopyA
  exact K.bind (valueless_rel K y) fun v => Cong.ite (K.bind (deref_rel K y) fun p => K.bind (vclone_rel K H p a) fun _ => K.pure _) (K.pure _)

theorem ctorMoveAP_rel (a : A) (y : L) : rel (Polymorphic.ctorMoveA tr P a y) (Polymorphic.ctorMoveA tr P' a y) := by
  unfold Polymorphic.ctorMoveA
  refine K.noexceptIf _ (K.bind (K.getH y) fun o => Cong.ite (K.bind (K.setP _ _) fun _ => K.pure _) (Cong.ite (K.bind (K.setP _ _) fun _ => K.pure _) ?_))
  exact K.bind (valueless_rel K y) fun v => Cong.ite (K.bind (deref_rel K y) fun p => K.bind (vmove_rel K H p a) fun _ => K.pure _) (K.pure _)

theorem ctorMoveAP14_rel (a : A) (y : L) : rel (Polymorphic14.ctorMoveA tr P a y) (Polymorphic14.ctorMoveA tr P' a y) := by
  unfold Polymorphic14.ctorMoveA
  refine K.noexceptIf _ (K.bind (K.getH y) fun o => Cong.ite (K.bind (K.setP _ _) fun _ => K.pure _) (Cong.ite (K.bind (K.setP _ _) fun _ => K.pure _) ?_))
  exact K.bind (valueless_rel K y) fun v => Cong.ite (K.bind (deref_rel K y) fun p => K.bind (vmove_rel K H p a) fun _ => K.pure _) (K.pure _)

theorem tailP_rel (b : Bool) (x y : L) : rel (if b = true then (getH y >>= fun o => setAlloc x o.alloc >>= fun _ => Pure.pure x) else Pure.pure x : M (St L A R (PBody Ty V)) L)
    (if b = true then (getH y >>= fun o => setAlloc x o.alloc >>= fun _ => Pure.pure x) else Pure.pure x) :=
  Cong.ite (K.bind (K.getH _) fun _ => K.bind (K.setAlloc _ _) fun _ => K.pure _) (K.pure _)

theorem assignCopyP_rel (x y : L) : rel (Polymorphic.assignCopy tr P x y) (Polymorphic.assignCopy tr P' x y) := by
  unfold Polymorphic.assignCopy
  refine Cong.ite (K.pure _) ?_
  simp only []
  refine K.bind (valueless_rel K y) fun v => Cong.ite (K.bind (H.reset x) fun _ => tailP_rel K H _ x y) ?_
  refine K.bind (deref_rel K y) fun q => K.bind (K.getH x) fun t => K.bind (K.getH y) fun o => ?_
  exact K.bind (vclone_rel K H _ _) fun tmp => K.bind (H.reset x) fun _ => K.bind (K.setP _ _) fun _ => tailP_rel K H _ x y

theorem assignMoveP_rel (x y : L) : rel (Polymorphic.assignMove tr P x y) (Polymorphic.assignMove tr P' x y) := by
  unfold Polymorphic.assignMove
  refine K.noexceptIf _ (Cong.ite (K.pure _) ?_)
  simp only []
  refine K.bind (valueless_rel K y) fun v => Cong.ite (K.bind (H.reset x) fun _ => tailP_rel K H _ x y) ?_
  refine K.bind (K.getH x) fun t => K.bind (K.getH y) fun o => Cong.ite ?_ ?_
  · exact K.bind (K.setP _ _) fun _ => K.bind (K.setP _ _) fun _ => K.bind (H.reset y) fun _ => tailP_rel K H _ x y
  · exact K.bind (deref_rel K y) fun q => K.bind (vmove_rel K H _ _) fun tmp => K.bind (H.reset x) fun _ => K.bind (K.setP _ _) fun _ => tailP_rel K H _ x y

omit H

theorem derefP_rel (l : L) : rel (Polymorphic.deref l : M (St L A R (PBody Ty V)) Addr) (Polymorphic.deref l) := by
  unfold Polymorphic.deref
  refine K.bind (deref_rel K l) fun p => K.bind (readCB_rel K p) fun c => ?_
  cases c.p with
  | none => exact K.undef _
  | some p => exact K.pure _

theorem readAny_rel (p : Addr) : rel (readAny p : M (St L A R (PBody Ty V)) (Ty × V)) (readAny p) := by
  unfold readAny
  refine K.bind (readCB_rel K p) fun c => ?_
  cases c.u with
  | none => exact K.undef _
  | some p => exact K.pure _

theorem writeU_rel (p : Addr) (v : V) : rel (writeU p v : M (St L A R (PBody Ty V)) Unit) (writeU p v) := by
  unfold writeU
  refine K.bind (readCB_rel K p) fun c => ?_
  cases c.u with
  | none => exact K.undef _
  | some p => exact K.writeBody _ _

theorem evalSrcP_rel (u : Src L X) : rel (Polymorphic.evalSrc u : M (St L A R (PBody Ty V)) (Fwd X)) (Polymorphic.evalSrc u) := by
  cases u
  · exact K.pure _
  · exact K.bind (derefP_rel K _) fun _ => K.pure _
  · exact K.bind (derefP_rel K _) fun _ => K.pure _

theorem evalSrcP14_rel (u : Src L X) : rel (Polymorphic14.evalSrc u : M (St L A R (PBody Ty V)) (Fwd X)) (Polymorphic14.evalSrc u) := by
  cases u
  · exact K.pure _
  · exact K.bind (derefP_rel K _) fun _ => K.pure _
  · exact K.bind (derefP_rel K _) fun _ => K.pure _

include H

theorem createMake_rel (a : A) (ty : Ty) (xs : TArgs X) :
    rel (Polymorphic.createControlBlock tr P ty a (fun a m => P.make ty a m xs)) (Polymorphic.createControlBlock tr P' ty a (fun a m => P'.make ty a m xs)) :=
  create_rel K H fun _ _ => H.make _ _ _ _

theorem createFwd_rel (a : A) (ty : Ty) (u : Fwd X) :
    rel (Polymorphic.createControlBlock tr P ty a (fun a m => P.makeFwd ty a m u)) (Polymorphic.createControlBlock tr P' ty a (fun a m => P'.makeFwd ty a m u)) := by
  refine create_rel K H fun _ _ => ?_
  cases u
  · exact H.make _ _ _ _
  · exact H.copyCtor _ _ _ _
  · exact H.moveCtor _ _ _ _

theorem constructP_rel (a : Option A) (k : PCtor L Ty X) : rel (Polymorphic.construct tr P a k) (Polymorphic.construct tr P' a k) := by
  have hd (a : A) : rel (Polymorphic.ctorDefaultA tr P a) (Polymorphic.ctorDefaultA tr P' a) := by
    unfold Polymorphic.ctorDefaultA
    rw [H.base]
    exact K.bind (createMake_rel K H _ _ _) fun _ => K.pure _
  cases a <;> cases k <;> unfold Polymorphic.construct
  case none.default => exact hd _
  case none.from ty u => exact K.bind (evalSrcP_rel K u) fun u => K.bind (createFwd_rel K H _ ty u) fun _ => K.pure _
  case none.inPlace => exact K.bind (createMake_rel K H _ _ _) fun _ => K.pure _
  case none.ilist => exact K.bind (createMake_rel K H _ _ _) fun _ => K.pure _
  case some.default => exact hd _
  case some.from ty u => exact K.bind (evalSrcP_rel K u) fun u => K.bind (createFwd_rel K H _ ty u) fun _ => K.pure _
  case some.inPlace => exact K.bind (createMake_rel K H _ _ _) fun _ => K.pure _
  case some.ilist => exact K.bind (createMake_rel K H _ _ _) fun _ => K.pure _

theorem constructP14_rel (a : Option A) (k : PCtor L Ty X) : rel (Polymorphic14.construct tr P a k) (Polymorphic14.construct tr P' a k) := by
  have hd (a : A) : rel (Polymorphic14.ctorDefaultA tr P a) (Polymorphic14.ctorDefaultA tr P' a) := by
    unfold Polymorphic14.ctorDefaultA
    rw [H.base]
    exact K.bind (createMake_rel K H _ _ _) fun _ => K.pure _
  have hl (a : A) (ty : Ty) (l us : List X) : rel (Polymorphic14.ctorIlistA tr P a ty l us) (Polymorphic14.ctorIlistA tr P' a ty l us) := by
    unfold Polymorphic14.ctorIlistA
    rw [H.base]
    exact K.bind (createMake_rel K H _ _ _) fun _ => K.pure _
  cases a <;> cases k <;> unfold Polymorphic14.construct
  case none.default => exact hd _
  case none.from ty u => exact K.bind (evalSrcP14_rel K u) fun u => K.bind (createFwd_rel K H _ ty u) fun _ => K.pure _
  case none.inPlace => exact K.bind (createMake_rel K H _ _ _) fun _ => K.pure _
  case none.ilist => exact hl _ _ _ _
  case some.default => exact hd _
  case some.from ty u => exact K.bind (evalSrcP14_rel K u) fun u => K.bind (createFwd_rel K H _ ty u) fun _ => K.pure _
  case some.inPlace => exact K.bind (createMake_rel K H _ _ _) fun _ => K.pure _
  case some.ilist => exact hl _ _ _ _

theorem stepP_rel (o : POp L A Ty V X) : rel (Polymorphic.step tr P o) (Polymorphic.step tr P' o) := by
  cases o <;> unfold Polymorphic.step
  case make x a k => exact K.bind (constructP_rel K H a k) fun h => K.bind (K.emplace _ _) fun _ => K.pure _
  case copy x y => exact K.bind (K.bind (K.getH y) fun o => ctorCopyAP_rel K H _ y) fun h => K.bind (K.emplace _ _) fun _ => K.pure _
  case copyA x a y => exact K.bind (ctorCopyAP_rel K H a y) fun h => K.bind (K.emplace _ _) fun _ => K.pure _
  case move x y => exact K.bind (K.noexceptIf _ (K.bind (K.getH y) fun o => ctorMoveAP_rel K H _ y)) fun h => K.bind (K.emplace _ _) fun _ => K.pure _
  case moveA x a y => exact K.bind (ctorMoveAP_rel K H a y) fun h => K.bind (K.emplace _ _) fun _ => K.pure _
  case destroy x => exact K.bind (K.noexceptIf _ (K.bind (H.reset x) fun _ => K.endLife x)) fun _ => K.pure _
  case assignCopy x y => exact K.bind (assignCopyP_rel K H x y) fun _ => K.pure _
  case assignMove x y => exact K.bind (assignMoveP_rel K H x y) fun _ => K.pure _
  case deref x => exact K.bind (derefP_rel K x) fun p => K.bind (readAny_rel K p) fun _ => K.pure _
  case arrow x => exact K.bind (derefP_rel K x) fun p => K.bind (readAny_rel K p) fun _ => K.pure _
  case modify x f => exact K.bind (derefP_rel K x) fun p => K.bind (readAny_rel K p) fun _ => K.bind (writeU_rel K _ _) fun _ => K.pure _
  case valueless x => exact K.bind (valueless_rel K x) fun _ => K.pure _
  case getAllocator x => exact K.bind (K.bind (K.getH x) fun _ => K.pure _) fun _ => K.pure _
  case swap x y => exact K.bind (swap_rel K x y) fun _ => K.pure _
  case friendSwap x y => exact K.bind (K.noexceptIf _ (swap_rel K x y)) fun _ => K.pure _

theorem stepP14_rel (o : POp L A Ty V X) : rel (Polymorphic14.step tr P o) (Polymorphic14.step tr P' o) := by
  cases o <;> unfold Polymorphic14.step
  case make x a k => exact K.bind (constructP14_rel K H a k) fun h => K.bind (K.emplace _ _) fun _ => K.pure _
  case copy x y => exact K.bind (K.bind (K.getH y) fun o => ctorCopyAP_rel K H _ y) fun h => K.bind (K.emplace _ _) fun _ => K.pure _
  case copyA x a y => exact K.bind (ctorCopyAP_rel K H a y) fun h => K.bind (K.emplace _ _) fun _ => K.pure _
  case move x y => exact K.bind (K.noexceptIf _ (K.bind (K.getH y) fun o => ctorMoveAP14_rel K H _ y)) fun h => K.bind (K.emplace _ _) fun _ => K.pure _
  case moveA x a y => exact K.bind (ctorMoveAP14_rel K H a y) fun h => K.bind (K.emplace _ _) fun _ => K.pure _
  case destroy x => exact K.bind (K.noexceptIf _ (K.bind (H.reset x) fun _ => K.endLife x)) fun _ => K.pure _
  case assignCopy x y => exact K.bind (assignCopyP_rel K H x y) fun _ => K.pure _
  case assignMove x y => exact K.bind (assignMoveP_rel K H x y) fun _ => K.pure _
  case deref x => exact K.bind (derefP_rel K x) fun p => K.bind (readAny_rel K p) fun _ => K.pure _
  case arrow x => exact K.bind (derefP_rel K x) fun p => K.bind (readAny_rel K p) fun _ => K.pure _
  case modify x f => exact K.bind (derefP_rel K x) fun p => K.bind (readAny_rel K p) fun _ => K.bind (writeU_rel K _ _) fun _ => K.pure _
  case valueless x => exact K.bind (valueless_rel K x) fun _ => K.pure _
  case getAllocator x => exact K.bind (K.bind (K.getH x) fun _ => K.pure _) fun _ => K.pure _
  case swap x y => exact K.bind (swap_rel K x y) fun _ => K.pure _
  case friendSwap x y => exact K.bind (K.noexceptIf _ (swap_rel K x y)) fun _ => K.pure _

end
end Verif.Passing
