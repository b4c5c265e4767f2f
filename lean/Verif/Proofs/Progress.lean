import Verif.IndirectFine
import Verif.PolymorphicFine
import Verif.Spec.Concurrent

/-!
Every call is a bounded number of accesses.
-/

set_option autoImplicit false
set_option linter.unusedSectionVars false
set_option linter.unusedSimpArgs false

namespace Verif

/-- The program makes at most `n` accesses. -/
def Prog.AtMost {L A R B α : Type} : Nat → Prog L A R B α → Prop
  | _, .ret _ => True
  | _, .throw _ => True
  | _, .terminate => True
  | _, .undef _ => True
  | 0, .act _ _ => False
  | n + 1, .act _ k => ∀ r, (k r).AtMost n

namespace Prog.AtMost
variable {L A R B α β : Type} {n k : Nat}

theorem mono {m : Prog L A R B α} (h : m.AtMost n) (hk : n ≤ k) : m.AtMost k := by
  induction m generalizing n k with
  | act a f ih =>
    cases n with
    | zero => exact h.elim
    | succ n =>
      cases k with
      | zero => omega
      | succ k => exact fun r => ih r (h r) (by omega)
  | _ => cases k <;> trivial

theorem pure' (a : α) : (pure a : Prog L A R B α).AtMost 0 := trivial
theorem throwE (e : Exn) : (Prog.throwE e : Prog L A R B α).AtMost 0 := trivial
theorem undef (u : UB) : (Prog.undef u : Prog L A R B α).AtMost 0 := trivial
theorem prim {a : Act L A R B} : (Prog.act a .ret).AtMost 1 := fun _ => trivial

theorem bind {m : Prog L A R B α} {f : α → Prog L A R B β} (hm : m.AtMost n) (hf : ∀ a, (f a).AtMost k) :
    (m >>= f).AtMost (n + k) := by
  show (Prog.andThen f m).AtMost (n + k)
  induction m generalizing n with
  | ret a => exact (hf a).mono (by omega)
  | act a g ih =>
    cases n with
    | zero => exact hm.elim
    | succ n =>
      rw [Nat.succ_add]
      exact fun r => ih r (hm r)
  | _ => cases (n + k) <;> trivial

theorem onThrow {m : Prog L A R B α} {c : Prog L A R B Unit} (hm : m.AtMost n) (hc : c.AtMost k) :
    (Prog.onThrow m c).AtMost (n + k) := by
  induction m generalizing n with
  | throw e => exact (bind (k := 0) (f := fun _ => Prog.throw e) hc fun _ => trivial).mono (by omega)
  | act a g ih =>
    cases n with
    | zero => exact hm.elim
    | succ n =>
      rw [Nat.succ_add]
      exact fun r => ih r (hm r)
  | _ => cases (n + k) <;> trivial

theorem noexceptIf {m : Prog L A R B α} {b : Bool} (hm : m.AtMost n) : (Prog.noexceptIf b m).AtMost n := by
  induction m generalizing n with
  | throw e => cases b <;> cases n <;> trivial
  | act a g ih =>
    cases n with
    | zero => exact hm.elim
    | succ n => exact fun r => ih r (hm r)
  | _ => cases n <;> trivial

theorem ite {c : Prop} [Decidable c] {m p : Prog L A R B α} (hm : m.AtMost n) (hp : p.AtMost k) :
    (if c then m else p).AtMost (max n k) := by
  split
  · exact hm.mono (by omega)
  · exact hp.mono (by omega)

end Prog.AtMost

open Prog.AtMost

namespace Fine
section
variable {L A R B : Type}
theorem am_getH (l : L) : (getH l : Prog L A R B _).AtMost 1 := prim
theorem am_setP (l : L) (p : Option Addr) : (setP l p : Prog L A R B _).AtMost 1 := prim
theorem am_setAlloc (l : L) (a : A) : (setAlloc l a : Prog L A R B _).AtMost 1 := prim
theorem am_emplace (l : L) (h : Handle A) : (emplace l h : Prog L A R B _).AtMost 1 := prim
theorem am_endLife (l : L) : (endLife l : Prog L A R B _).AtMost 1 := prim
theorem am_allocate (r : R) : (allocate r : Prog L A R B _).AtMost 1 := by
  intro p
  change Option Addr at p
  cases p <;> trivial
theorem am_deallocate (r : R) (p : Addr) : (deallocate r p : Prog L A R B _).AtMost 1 := prim
theorem am_readBody (p : Addr) : (readBody p : Prog L A R B _).AtMost 1 := prim
theorem am_writeBody (p : Addr) (b : B) : (writeBody p b : Prog L A R B _).AtMost 1 := prim
theorem am_emit (ev : Ev R) : (emit ev : Prog L A R B _).AtMost 1 := prim
theorem am_choose : (choose : Prog L A R B _).AtMost 1 := prim
end

/-- One step of the computation of a bound. -/
macro "am1" : tactic => `(tactic| first
  | exact pure' _ | exact Prog.AtMost.throwE _ | exact Prog.AtMost.undef _
  | exact am_getH _ | exact am_setP _ _ | exact am_setAlloc _ _ | exact am_emplace _ _ | exact am_endLife _
  | exact am_allocate _ | exact am_deallocate _ _ | exact am_readBody _ | exact am_writeBody _ _ | exact am_emit _
  | exact am_choose | exact prim
  | intro _
  | apply Prog.AtMost.bind | apply Prog.AtMost.onThrow | apply Prog.AtMost.noexceptIf | apply Prog.AtMost.ite)

section
variable {L A R V X : Type} [DecidableEq L]

theorem am_readObj (p : Addr) : (readObj p : Prog L A R (Obj V) _).AtMost 1 := by
  refine (Prog.AtMost.bind (n := 1) (k := 0) (am_readBody p) fun b => ?_)
  cases b <;> trivial

theorem am_writeObj (p : Addr) (v : V) : (writeObj p v : Prog L A R (Obj V) _).AtMost 2 :=
  Prog.AtMost.bind (n := 1) (k := 1) (am_readObj p) fun _ => am_writeBody _ _

theorem am_endObj (p : Addr) : (endObj p : Prog L A R (Obj V) _).AtMost 3 :=
  Prog.AtMost.bind (n := 1) (k := 2) (am_readObj p) fun _ => Prog.AtMost.bind (n := 1) (k := 1) (am_writeBody _ _) fun _ =>
    am_emit _

theorem am_finish (p : Addr) (how : How) (r : Except Exn V) : (finish p how r : Prog L A R (Obj V) _).AtMost 1 := by
  cases r
  · trivial
  · exact prim

theorem am_rethrow (r : Option Exn) : (rethrow r : Prog L A R (Obj V) _).AtMost 0 := by cases r <;> trivial

/-- Bounds for the operations of the owned type. -/
structure TAm {B : Type} (T : FOps L A R B X) : Prop where
  make : ∀ a d xs, (T.make a d xs).AtMost 8
  copyCtor : ∀ a d q, (T.copyCtor a d q).AtMost 8
  moveCtor : ∀ a d q, (T.moveCtor a d q).AtMost 8
  copyAssign : ∀ d q, (T.copyAssign d q).AtMost 8
  moveAssign : ∀ d q, (T.moveAssign d q).AtMost 8
  assignArg : ∀ d x, (T.assignArg d x).AtMost 8
  dtor : ∀ a d, (T.dtor a d).AtMost 8

/-- One step of the computation of a bound. -/
macro "am2" : tactic => `(tactic| first
  | exact am_readObj _ | exact am_writeObj _ _ | exact am_endObj _ | exact am_finish _ _ _ | exact am_rethrow _ | am1)

theorem am_plain (T : TSpec V X) : TAm (plain T : FOps L A R (Obj V) X) := by
  constructor <;> intros <;> simp only [plain] <;> (apply Prog.AtMost.mono; (· repeat' am2); decide)

/-- A call makes at most this many accesses. -/
macro "am" : tactic => `(tactic| (apply Prog.AtMost.mono; (· repeat' am2); decide))

end

namespace Indirect
section
variable {L A R B X : Type} [DecidableEq L]
variable (tr : ATraits A R) {T : FOps L A R B X} (hT : TAm T)

theorem am_valueless (x : L) : (valueless x : Prog L A R B _).AtMost 1 := by unfold valueless; am
theorem am_getAllocator (x : L) : (getAllocator x : Prog L A R B _).AtMost 1 := by unfold getAllocator; am
theorem am_deref (x : L) : (deref x : Prog L A R B _).AtMost 1 := by
  refine Prog.AtMost.bind (n := 1) (k := 0) (am_getH x) fun h => ?_
  cases h.p <;> trivial
theorem am_arrow (x : L) : (arrow x : Prog L A R B _).AtMost 1 := by
  refine Prog.AtMost.bind (n := 1) (k := 0) (am_getH x) fun h => ?_
  cases h.p <;> trivial
theorem am_constructFrom (a : A) {k : A → Addr → Prog L A R B Unit} (hk : ∀ b m, (k b m).AtMost 8) :
    (constructFrom tr a k).AtMost 10 :=
  Prog.AtMost.bind (n := 1) (k := 9) (am_allocate _) fun m =>
    Prog.AtMost.bind (n := 9) (k := 0) (Prog.AtMost.onThrow (hk _ m) (am_deallocate _ _)) fun _ => pure' _
include hT
theorem am_destroyWith (a : A) (p : Addr) : (destroyWith tr T a p).AtMost 9 :=
  Prog.AtMost.bind (n := 8) (k := 1) (hT.dtor _ p) fun _ => am_deallocate _ _
theorem am_reset (x : L) : (reset tr T x).AtMost 11 := by
  refine Prog.AtMost.noexceptIf (Prog.AtMost.bind (n := 1) (k := 10) (am_getH x) fun h => ?_)
  cases h.p
  · trivial
  · exact Prog.AtMost.bind (n := 9) (k := 1) (am_destroyWith tr hT _ _) fun _ => am_setP _ _
theorem am_makeFwd (a : A) (d : Addr) (u : Fwd X) : (T.makeFwd a d u).AtMost 8 := by
  cases u
  · exact hT.make _ _ _
  · exact hT.copyCtor _ _ _
  · exact hT.moveCtor _ _ _
theorem am_assignFwd (d : Addr) (u : Fwd X) : (T.assignFwd d u).AtMost 8 := by
  cases u
  · exact hT.assignArg _ _
  · exact hT.copyAssign _ _
  · exact hT.moveAssign _ _
omit hT

/-- One step of the computation of a bound. -/
macro "am3" : tactic => `(tactic| first
  | exact am_valueless _ | exact am_deref _ | exact am_arrow _ | exact am_getAllocator _
  | (refine am_constructFrom _ _ ?_; intro _ _; first
      | exact TAm.make (by assumption) _ _ _ | exact TAm.copyCtor (by assumption) _ _ _ | exact TAm.moveCtor (by assumption) _ _ _
      | exact am_makeFwd (by assumption) _ _ _)
  | exact am_reset _ (by assumption) _
  | exact TAm.copyAssign (by assumption) _ _
  | exact am_assignFwd (by assumption) _ _ | am2)

/-- A call makes at most this many accesses. -/
macro "amI" : tactic => `(tactic| (apply Prog.AtMost.mono; (· repeat' am3); decide))

include hT
theorem am_ctorCopyA (a : A) (y : L) : (ctorCopyA tr T a y).AtMost 16 := by unfold ctorCopyA; amI
theorem am_ctorMoveA (a : A) (y : L) : (ctorMoveA tr T a y).AtMost 16 := by unfold ctorMoveA; amI
theorem am_assignCopy (x y : L) : (assignCopy tr T x y).AtMost 36 := by unfold assignCopy; amI
theorem am_assignMove (x y : L) : (assignMove tr T x y).AtMost 36 := by unfold assignMove; amI
theorem am_assignFrom (x : L) (u : Fwd X) : (assignFrom tr T x u).AtMost 36 := by unfold assignFrom; amI
theorem am_dtor (x : L) : (dtor tr T x).AtMost 36 := by unfold dtor; amI
omit hT
theorem am_swap (x y : L) : (swap tr x y : Prog L A R B _).AtMost 36 := by unfold swap; amI
theorem am_friendSwap (x y : L) : (friendSwap tr x y : Prog L A R B _).AtMost 36 := Prog.AtMost.noexceptIf (am_swap tr x y)
end

section
variable {L A R V X : Type} [DecidableEq L]

theorem am_evalSrc (u : Src L X) : (evalSrc u : Prog L A R (Obj V) _).AtMost 1 := by
  cases u <;> unfold evalSrc <;> amI

variable (tr : ATraits A R) {T : FOps L A R (Obj V) X} (hT : TAm T)
include hT

theorem am_construct (a : Option A) (c : Ctor L X) : (construct tr T a c).AtMost 16 := by
  cases a <;> cases c <;>
    simp only [construct, ctorDefault, ctorFrom, ctorInPlace, ctorIlist, ctorDefaultA, ctorFromA, ctorInPlaceA, ctorInPlaceOneA,
      ctorIlistA] <;>
    (apply Prog.AtMost.mono; (· repeat' (first | exact am_evalSrc _ | am3)); decide)

/-- Every call is at most 40 accesses. -/
theorem am_step (o : Op L A V X) : (step tr T o).AtMost 40 := by
  cases o <;> simp only [step, ctorCopy, ctorMove] <;>
    (apply Prog.AtMost.mono; (· repeat' (first
      | exact am_construct _ (by assumption) _ _ | exact am_ctorCopyA _ (by assumption) _ _
      | exact am_ctorMoveA _ (by assumption) _ _
      | exact am_assignCopy _ (by assumption) _ _ | exact am_assignMove _ (by assumption) _ _
      | exact am_assignFrom _ (by assumption) _ _ | exact am_dtor _ (by assumption) _
      | exact am_swap _ _ _ | exact am_friendSwap _ _ _
      | exact am_evalSrc _ | am3)); decide)

end
end Indirect

section
variable {L A R Ty V X : Type} [DecidableEq L] [DecidableEq Ty]

theorem am_readCB (q : Addr) : (readCB q : Prog L A R (PBody Ty V) _).AtMost 1 := by
  refine Prog.AtMost.bind (n := 1) (k := 0) (am_readBody q) fun b => ?_
  cases b <;> trivial
theorem am_readAny (q : Addr) : (readAny q : Prog L A R (PBody Ty V) _).AtMost 1 := by
  refine Prog.AtMost.bind (n := 1) (k := 0) (am_readCB q) fun c => ?_
  split <;> trivial
theorem am_readU (ty : Ty) (q : Addr) : (readU ty q : Prog L A R (PBody Ty V) _).AtMost 1 := by
  refine Prog.AtMost.bind (n := 1) (k := 0) (am_readCB q) fun c => ?_
  split
  · split <;> trivial
  · trivial
theorem am_writeU (q : Addr) (v : V) : (writeU q v : Prog L A R (PBody Ty V) _).AtMost 2 := by
  refine Prog.AtMost.bind (n := 1) (k := 1) (am_readCB q) fun c => ?_
  split
  · exact am_writeBody _ _
  · trivial
theorem am_endU (ty : Ty) (q : Addr) : (endU ty q : Prog L A R (PBody Ty V) _).AtMost 4 :=
  Prog.AtMost.bind (n := 1) (k := 3) (am_readU ty q) fun _ => Prog.AtMost.bind (n := 1) (k := 2) (am_readCB q) fun _ =>
    Prog.AtMost.bind (n := 1) (k := 1) (am_writeBody _ _) fun _ => am_emit _
theorem am_finishU (ty : Ty) (q : Addr) (how : How) (r : Except Exn V) :
    (finishU ty q how r : Prog L A R (PBody Ty V) _).AtMost 1 := by
  cases r
  · trivial
  · exact prim
theorem am_abortCB (q : Addr) : (abortCB q : Prog L A R (PBody Ty V) _).AtMost 2 := by
  refine Prog.AtMost.bind (n := 1) (k := 1) (am_readCB q) fun c => ?_
  split
  · trivial
  · exact am_writeBody _ _
theorem am_setCBp (q r : Addr) : (setCBp q r : Prog L A R (PBody Ty V) _).AtMost 2 :=
  Prog.AtMost.bind (n := 1) (k := 1) (am_readCB q) fun _ => am_writeBody _ _

/-- Bounds for the operations of the owned types. -/
structure PAm {B : Type} (P : FPOps L A R B Ty X) : Prop where
  make : ∀ ty a d xs, (P.make ty a d xs).AtMost 8
  copyCtor : ∀ ty a d q, (P.copyCtor ty a d q).AtMost 8
  moveCtor : ∀ ty a d q, (P.moveCtor ty a d q).AtMost 8
  dtor : ∀ ty a d, (P.dtor ty a d).AtMost 8
  block : ∀ a d m n, m.AtMost n → (P.block a d m).AtMost n

/-- One step of the computation of a bound. -/
macro "amp2" : tactic => `(tactic| first
  | exact am_readU _ _ | exact am_readAny _ | exact am_writeU _ _ | exact am_endU _ _ | exact am_finishU _ _ _ _ | am1)

theorem am_plainP (P : PSpec Ty V X) : PAm (plainP P : FPOps L A R (PBody Ty V) Ty X) := by
  constructor <;> intros <;> simp only [plainP] <;> first | assumption | (apply Prog.AtMost.mono; (· repeat' amp2); decide)

end

namespace Polymorphic
section
variable {L A R Ty V X : Type} [DecidableEq L] [DecidableEq Ty]
variable (tr : ATraits A R) {P : FPOps L A R (PBody Ty V) Ty X} (hP : PAm P)

include hP in
theorem am_create (ty : Ty) (a : A) {k : A → Addr → Prog L A R (PBody Ty V) Unit} (hk : ∀ b m, (k b m).AtMost 8) :
    (createControlBlock tr P ty a k).AtMost 15 :=
  Prog.AtMost.bind (n := 1) (k := 14) (am_allocate _) fun m =>
    Prog.AtMost.bind (n := 14) (k := 0) (Prog.AtMost.onThrow (n := 13) (k := 1)
      (hP.block _ _ _ 13 (Prog.AtMost.bind (n := 1) (k := 12) prim fun _ =>
        Prog.AtMost.bind (n := 10) (k := 2) (Prog.AtMost.onThrow (hk _ m) (am_abortCB m)) fun _ => am_setCBp _ _))
      (am_deallocate _ _)) fun _ => pure' _

theorem am_valueless (x : L) : (valueless x : Prog L A R (PBody Ty V) _).AtMost 1 := by unfold valueless; am
theorem am_getAllocator (x : L) : (getAllocator x : Prog L A R (PBody Ty V) _).AtMost 1 := by unfold getAllocator; am
theorem am_derefCB (x : L) : (derefCB x : Prog L A R (PBody Ty V) _).AtMost 1 := by
  refine Prog.AtMost.bind (n := 1) (k := 0) (am_getH x) fun h => ?_
  cases h.p <;> trivial
theorem am_deref (x : L) : (deref x : Prog L A R (PBody Ty V) _).AtMost 2 := by
  refine Prog.AtMost.bind (n := 1) (k := 1) (am_derefCB x) fun q =>
    Prog.AtMost.bind (n := 1) (k := 0) (am_readCB q) fun c => ?_
  cases c.p <;> trivial
theorem am_arrow (x : L) : (arrow x : Prog L A R (PBody Ty V) _).AtMost 2 := am_deref x

include hP
theorem am_makeFwd (ty : Ty) (a : A) (d : Addr) (u : Fwd X) : (P.makeFwd ty a d u).AtMost 8 := by
  cases u
  · exact hP.make _ _ _ _
  · exact hP.copyCtor _ _ _ _
  · exact hP.moveCtor _ _ _ _
theorem am_vclone (q : Addr) (a : A) : (vclone tr P q a).AtMost 16 :=
  Prog.AtMost.bind (n := 1) (k := 15) (am_readCB q) fun _ => am_create tr hP _ _ fun _ _ => hP.copyCtor _ _ _ _
theorem am_vmove (q : Addr) (a : A) : (vmove tr P q a).AtMost 16 :=
  Prog.AtMost.bind (n := 1) (k := 15) (am_readCB q) fun _ => am_create tr hP _ _ fun _ _ => hP.moveCtor _ _ _ _
theorem am_vdestroy (q : Addr) (a : A) : (vdestroy tr P q a).AtMost 10 :=
  Prog.AtMost.bind (n := 1) (k := 9) (am_readCB q) fun _ =>
    Prog.AtMost.bind (n := 8) (k := 1) (hP.dtor _ _ _) fun _ => am_deallocate _ _
theorem am_reset (x : L) : (reset tr P x).AtMost 12 := by
  refine Prog.AtMost.noexceptIf (Prog.AtMost.bind (n := 1) (k := 11) (am_getH x) fun h => ?_)
  cases h.p
  · trivial
  · exact Prog.AtMost.bind (n := 10) (k := 1) (am_vdestroy tr hP _ _) fun _ => am_setP _ _
omit hP

/-- One step of the computation of a bound. -/
macro "amp3" : tactic => `(tactic| first
  | exact am_valueless _ | exact am_deref _ | exact am_arrow _ | exact am_getAllocator _ | exact am_derefCB _
  | exact am_vclone _ (by assumption) _ _ | exact am_vmove _ (by assumption) _ _
  | (refine am_create _ (by assumption) _ _ ?_; intro _ _; first
      | exact PAm.make (by assumption) _ _ _ _ | exact am_makeFwd (by assumption) _ _ _ _)
  | exact am_reset _ (by assumption) _
  | amp2)

/-- A call makes at most this many accesses. -/
macro "amP" : tactic => `(tactic| (apply Prog.AtMost.mono; (· repeat' amp3); decide))

include hP
theorem am_ctorCopyA (a : A) (y : L) : (ctorCopyA tr P a y).AtMost 20 := by unfold ctorCopyA; amP
theorem am_ctorMoveA (a : A) (y : L) : (ctorMoveA tr P a y).AtMost 20 := by unfold ctorMoveA; amP
theorem am_assignCopy (x y : L) : (assignCopy tr P x y).AtMost 36 := by unfold assignCopy; amP
theorem am_assignMove (x y : L) : (assignMove tr P x y).AtMost 36 := by unfold assignMove; amP
theorem am_dtor (x : L) : (dtor tr P x).AtMost 36 := by unfold dtor; amP
omit hP
theorem am_swap (x y : L) : (swap tr x y : Prog L A R (PBody Ty V) _).AtMost 36 := by unfold swap; amP
theorem am_friendSwap (x y : L) : (friendSwap tr x y : Prog L A R (PBody Ty V) _).AtMost 36 :=
  Prog.AtMost.noexceptIf (am_swap tr x y)

theorem am_evalSrc (u : Src L X) : (evalSrc u : Prog L A R (PBody Ty V) _).AtMost 2 := by
  cases u <;> unfold evalSrc <;> amP

include hP
theorem am_construct (a : Option A) (c : PCtor L Ty X) : (construct tr P a c).AtMost 20 := by
  cases a <;> cases c <;>
    simp only [construct, ctorDefault, ctorFrom, ctorInPlace, ctorIlist, ctorDefaultA, ctorFromA, ctorInPlaceA, ctorIlistA] <;>
    (apply Prog.AtMost.mono; (· repeat' (first | exact am_evalSrc _ | amp3)); decide)

/-- Every call is at most 40 accesses. -/
theorem am_step (o : POp L A Ty V X) : (step tr P o).AtMost 40 := by
  cases o <;> simp only [step, ctorCopy, ctorMove] <;>
    (apply Prog.AtMost.mono; (· repeat' (first
      | exact am_construct _ (by assumption) _ _ | exact am_ctorCopyA _ (by assumption) _ _
      | exact am_ctorMoveA _ (by assumption) _ _
      | exact am_assignCopy _ (by assumption) _ _ | exact am_assignMove _ (by assumption) _ _
      | exact am_dtor _ (by assumption) _
      | exact am_swap _ _ _ | exact am_friendSwap _ _ _
      | exact am_evalSrc _ | amp3)); decide)

end
end Polymorphic
end Fine

namespace Conf
variable {Th L A R B Op Out : Type} [DecidableEq Th] [DecidableEq L] [DecidableEq R] [Body B]
variable {prog : Op → Prog L A R B Out} {next : Th → List (Seen Out) → Option Op}

open Spec (turns)

theorem tick_other {i j : Th} {e : Env} {c c' : Conf Th L A R B Out} (h : tick prog next j e c = .running c') (hj : j ≠ i) :
    c'.th i = c.th i := by
  unfold tick at h
  split at h
  · split at h
    · cases h; rfl
    · cases h; simp [setTh, upd, Ne.symm hj]
  · cases h; simp [setTh, upd, Ne.symm hj]
  · cases h; simp [setTh, upd, Ne.symm hj]
  · cases h
  · cases h
  · split at h
    · cases h; simp [upd, Ne.symm hj]
    · cases h

theorem tick_log {i j : Th} {e : Env} {c c' : Conf Th L A R B Out} (h : tick prog next j e c = .running c') :
    (c.th i).log.length ≤ (c'.th i).log.length := by
  by_cases hj : j = i
  · subst hj
    unfold tick at h
    split at h
    · split at h
      · cases h; exact Nat.le_refl _
      · cases h; simp [setTh, upd]
    · cases h; simp [setTh, upd]
    · cases h; simp [setTh, upd]
    · cases h
    · cases h
    · split at h
      · cases h; simp [upd]
      · cases h
  · rw [tick_other h hj]; exact Nat.le_refl _

theorem exec_log {i : Th} {sched : List (Th × Env)} {c c' : Conf Th L A R B Out} (h : exec prog next sched c = .running c') :
    (c.th i).log.length ≤ (c'.th i).log.length := by
  induction sched generalizing c with
  | nil => cases h; exact Nat.le_refl _
  | cons p sched ih =>
    obtain ⟨j, e⟩ := p
    simp only [exec] at h
    cases ht : tick prog next j e c <;> rw [ht] at h <;> simp only at h
    · exact Nat.le_trans (tick_log ht) (ih h)
    · cases h
    · cases h

/-- One step of a thread that is in a call. -/
theorem tick_left {i : Th} {e : Env} {c c' : Conf Th L A R B Out} {n : Nat} {m : Prog L A R B Out}
    (h : tick prog next i e c = .running c') (hm : (c.th i).cur = some m) (hn : m.AtMost n) :
    (c.th i).log.length < (c'.th i).log.length ∨
      (c'.th i).log = (c.th i).log ∧ ∃ k m', n = k + 1 ∧ (c'.th i).cur = some m' ∧ m'.AtMost k := by
  simp only [tick, hm] at h
  cases m with
  | ret o => cases h; left; simp [setTh, upd]
  | throw x => cases h; left; simp [setTh, upd]
  | terminate => cases h
  | undef u => cases h
  | act a k =>
    cases n with
    | zero => exact hn.elim
    | succ n =>
      right
      simp only at h
      cases hx : a.exec (c.view i) with
      | error u => rw [hx] at h; cases h
      | ok r =>
        rw [hx] at h
        cases h
        simp only [upd, if_true, true_and]
        exact ⟨n, _, rfl, rfl, hn _⟩

/-- A thread in a call with at most `n` accesses to go completes it when it is scheduled `n + 1` times. -/
theorem exec_left {i : Th} {sched : List (Th × Env)} {c c' : Conf Th L A R B Out} {n : Nat} {m : Prog L A R B Out}
    (h : exec prog next sched c = .running c') (hm : (c.th i).cur = some m) (hn : m.AtMost n) (ht : n < turns i sched) :
    (c.th i).log.length < (c'.th i).log.length := by
  induction sched generalizing c n m with
  | nil => simp [turns] at ht
  | cons p sched ih =>
    obtain ⟨j, e⟩ := p
    simp only [exec] at h
    cases hx : tick prog next j e c <;> rw [hx] at h <;> simp only at h
    · rename_i d
      by_cases hj : j = i
      · subst hj
        rcases tick_left hx hm hn with hl | ⟨hl, k, m', rfl, hm', hk⟩
        · exact Nat.lt_of_lt_of_le hl (exec_log h)
        · rw [← hl]
          refine ih h hm' hk ?_
          simp only [turns, List.filter_cons, decide_true, if_true, List.length_cons] at ht
          exact Nat.lt_of_succ_lt_succ ht
      · rw [← tick_other hx hj]
        refine ih h (by rw [tick_other hx hj]; exact hm) hn ?_
        simpa [turns, List.filter_cons, hj] using ht
    · cases h
    · cases h

/-- Every thread that has a call to make has completed one when it has been scheduled often enough, whatever the others do. -/
theorem exec_progress {N : Nat} (hN : ∀ o, (prog o).AtMost N) {i : Th} {sched : List (Th × Env)}
    {c c' : Conf Th L A R B Out} (h : exec prog next sched c = .running c')
    (hi : (c.th i).cur = none) (hnext : next i (c.th i).log ≠ none) (ht : N + 2 ≤ turns i sched) :
    (c.th i).log.length < (c'.th i).log.length := by
  induction sched generalizing c with
  | nil => simp [turns] at ht
  | cons p sched ih =>
    obtain ⟨j, e⟩ := p
    simp only [exec] at h
    cases hx : tick prog next j e c <;> rw [hx] at h <;> simp only at h
    · rename_i d
      by_cases hj : j = i
      · subst hj
        obtain ⟨o, ho⟩ := Option.ne_none_iff_exists'.1 hnext
        simp only [tick, hi, ho] at hx
        cases hx
        have e1 : ∀ (d : Conf Th L A R B Out), d = c.setTh j ⟨some (prog o), e, 0, 0, (c.th j).log⟩ →
            (d.th j).log = (c.th j).log ∧ (d.th j).cur = some (prog o) := by
          rintro d rfl; simp [setTh, upd]
        rw [← (e1 _ rfl).1]
        refine exec_left h (e1 _ rfl).2 (hN o) ?_
        simp only [turns, List.filter_cons, decide_true, if_true, List.length_cons] at ht
        exact Nat.lt_of_succ_lt_succ ht
      · rw [← tick_other hx hj]
        refine ih h (by rw [tick_other hx hj]; exact hi) (by rw [tick_other hx hj]; exact hnext) ?_
        simpa [turns, List.filter_cons, hj] using ht
    · cases h
    · cases h

end Conf
end Verif
