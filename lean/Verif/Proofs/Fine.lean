import Verif.IndirectFine
import Verif.PolymorphicFine
import Verif.Proofs.Basic

/-! Running a program of accesses without interruption is the same as the transition of the machine. -/

set_option autoImplicit false
set_option linter.unusedSectionVars false
set_option linter.unusedSimpArgs false

namespace Verif

namespace Prog
section
variable {L A R B α β : Type} [DecidableEq L] [DecidableEq R] [Body B]

theorem interp_ret (a : α) : interp (.ret a : Prog L A R B α) = pure a := rfl
theorem interp_pure (a : α) : interp (pure a : Prog L A R B α) = pure a := rfl
theorem interp_throw (e : Exn) : interp (.throwE e : Prog L A R B α) = M.throwE e := rfl
theorem interp_undef (u : UB) : interp (.undef u : Prog L A R B α) = M.undef u := rfl

theorem interp_andThen (m : Prog L A R B α) (f : α → Prog L A R B β) :
    interp (andThen f m) = M.andThen (interp m) (fun a => interp (f a)) := by
  induction m with
  | act a k ih =>
    funext s
    simp only [andThen, interp, M.andThen]
    cases a.exec s with
    | ok r => simp only [ih, M.andThen]
    | error u => rfl
  | _ => funext s; rfl

theorem interp_bind (m : Prog L A R B α) (f : α → Prog L A R B β) :
    interp (m >>= f) = interp m >>= fun a => interp (f a) := interp_andThen m f

theorem interp_onThrow (m : Prog L A R B α) (c : Prog L A R B Unit) :
    interp (onThrow m c) = M.onThrow (interp m) (interp c) := by
  induction m with
  | act a k ih =>
    funext s
    simp only [onThrow, interp, M.onThrow]
    cases a.exec s with
    | ok r => simp only [ih, M.onThrow]
    | error u => rfl
  | throw e =>
    funext s
    simp only [onThrow, interp_andThen, M.andThen, M.onThrow, interp]
    cases interp c s <;> rfl
  | _ => funext s; rfl

theorem interp_noexceptIf (b : Bool) (m : Prog L A R B α) :
    interp (noexceptIf b m) = M.noexceptIf b (interp m) := by
  induction m with
  | act a k ih =>
    funext s
    simp only [noexceptIf, interp, M.noexceptIf]
    cases a.exec s with
    | ok r => simp only [ih, M.noexceptIf]
    | error u => rfl
  | throw e => funext s; cases b <;> rfl
  | _ => funext s; rfl

theorem interp_ite {c : Prop} [Decidable c] (m n : Prog L A R B α) :
    interp (if c then m else n) = if c then interp m else interp n := by split <;> rfl

/-- What an access as transition gives. -/
def ofExec {σ : Type} : Except UB (α × σ) → Res σ α
  | .ok (r, s) => .ok r s
  | .error u => .ub u

/-- What follows after an access. -/
def thenExec {σ γ : Type} (k : γ → M σ α) : Except UB (γ × σ) → Res σ α
  | .ok (r, s) => k r s
  | .error u => .ub u

theorem interp_act (a : Act L A R B) (k : a.Resp → Prog L A R B α) (s : St L A R B) :
    interp (.act a k) s = thenExec (fun r => interp (k r)) (a.exec s) := by
  simp only [interp]
  rcases a.exec s with u | ⟨r, s⟩ <;> rfl

theorem interp_prim (a : Act L A R B) (s : St L A R B) : interp (.act a .ret) s = ofExec (a.exec s) := by
  simp only [interp]
  rcases a.exec s with u | ⟨r, s⟩ <;> rfl

end
end Prog

namespace Fine
open Prog
section
variable {L A R B : Type} [DecidableEq L] [DecidableEq R] [Body B]

theorem interp_getH (l : L) : interp (getH l : Prog L A R B _) = Verif.getH l := by
  funext s; refine (interp_prim _ s).trans ?_; simp only [Act.exec, Verif.getH]; cases s.hs l <;> rfl
theorem interp_setP (l : L) (p : Option Addr) : interp (setP l p : Prog L A R B _) = Verif.setP l p := by
  funext s; refine (interp_prim _ s).trans ?_; simp only [Act.exec, Verif.setP]; cases s.hs l <;> rfl
theorem interp_setAlloc (l : L) (a : A) : interp (setAlloc l a : Prog L A R B _) = Verif.setAlloc l a := by
  funext s; refine (interp_prim _ s).trans ?_; simp only [Act.exec, Verif.setAlloc]; cases s.hs l <;> rfl
theorem interp_emplace (l : L) (h : Handle A) : interp (emplace l h : Prog L A R B _) = Verif.emplace l h := by
  funext s; refine (interp_prim _ s).trans ?_; simp only [Act.exec, Verif.emplace]; cases s.hs l <;> rfl
theorem interp_endLife (l : L) : interp (endLife l : Prog L A R B _) = Verif.endLife l := by
  funext s; refine (interp_prim _ s).trans ?_; simp only [Act.exec, Verif.endLife]; cases s.hs l <;> rfl
theorem interp_allocate (r : R) : interp (allocate r : Prog L A R B _) = Verif.allocate r := by
  funext s
  refine (interp_act (.allocate r) allocated s).trans ?_
  simp only [Act.exec, Verif.allocate]
  cases s.env.fail s.ai
  · cases s.heap (s.env.pick s.ai) <;> rfl
  · rfl
theorem interp_deallocate (r : R) (p : Addr) : interp (deallocate r p : Prog L A R B _) = Verif.deallocate r p := by
  funext s
  refine (interp_prim _ s).trans ?_
  simp only [Act.exec, Verif.deallocate]
  cases s.heap p with
  | none => rfl
  | some c =>
    simp only
    by_cases h : c.arena = r
    · cases h2 : Body.occupied c.body <;> simp [h, h2, ofExec] <;> rfl
    · simp [h, ofExec]; rfl
theorem interp_readBody (p : Addr) : interp (readBody p : Prog L A R B _) = Verif.readBody p := by
  funext s; refine (interp_prim _ s).trans ?_; simp only [Act.exec, Verif.readBody]; cases s.heap p <;> rfl
theorem interp_writeBody (p : Addr) (b : B) : interp (writeBody p b : Prog L A R B _) = Verif.writeBody p b := by
  funext s; refine (interp_prim _ s).trans ?_; simp only [Act.exec, Verif.writeBody]; cases s.heap p <;> rfl
theorem interp_emit (ev : Ev R) : interp (emit ev : Prog L A R B _) = Verif.emit ev := rfl
theorem interp_choose : interp (choose : Prog L A R B _) = Verif.choose := rfl

end

/-! indirect.h -/
section
variable {L A R V X : Type} [DecidableEq L] [DecidableEq R]

theorem interp_readObj (p : Addr) : interp (readObj p : Prog L A R (Obj V) _) = Verif.readObj p := by
  simp only [readObj, Verif.readObj, interp_bind, interp_readBody]
  congr 1; funext b; cases b <;> rfl
theorem interp_writeObj (p : Addr) (v : V) : interp (writeObj p v : Prog L A R (Obj V) _) = Verif.writeObj p v := by
  simp only [writeObj, Verif.writeObj, interp_bind, interp_readObj, interp_writeBody]
theorem interp_beginObj (p : Addr) (v : V) (how : How) :
    interp (beginObj p v how : Prog L A R (Obj V) _) = Verif.beginObj p v how := by
  funext s
  refine (interp_prim _ s).trans ?_
  simp only [Act.exec, Verif.beginObj]
  rcases s.heap p with _ | ⟨r, _ | w⟩ <;> rfl
theorem interp_endObj (p : Addr) : interp (endObj p : Prog L A R (Obj V) _) = Verif.endObj p := by
  simp only [endObj, Verif.endObj, interp_bind, interp_readObj, interp_writeBody, interp_emit]
theorem interp_finish (p : Addr) (how : How) (r : Except Exn V) :
    interp (finish p how r : Prog L A R (Obj V) _) = Verif.finish p how r := by
  cases r
  · rfl
  · exact interp_beginObj _ _ _
theorem interp_rethrow (e : Option Exn) : interp (rethrow e : Prog L A R (Obj V) _) = Verif.rethrow e := by
  cases e <;> rfl

/-- The operations of the owned type as programs and as transitions. -/
structure Same {B : Type} [Body B] (F : FOps L A R B X) (T : TOps (St L A R B) A X) : Prop where
  make : ∀ a d xs, interp (F.make a d xs) = T.make a d xs
  copyCtor : ∀ a d q, interp (F.copyCtor a d q) = T.copyCtor a d q
  moveCtor : ∀ a d q, interp (F.moveCtor a d q) = T.moveCtor a d q
  copyAssign : ∀ d q, interp (F.copyAssign d q) = T.copyAssign d q
  moveAssign : ∀ d q, interp (F.moveAssign d q) = T.moveAssign d q
  assignArg : ∀ d x, interp (F.assignArg d x) = T.assignArg d x
  dtor : ∀ a d, interp (F.dtor a d) = T.dtor a d
  assignable : F.assignable = T.assignable

theorem plain_same (T : TSpec V X) : Same (plain T : FOps L A R (Obj V) X) (Verif.plain T) := by
  constructor <;> intros <;>
    simp only [plain, Verif.plain, interp_bind, interp_readObj, interp_writeObj, interp_choose, interp_finish, interp_emit,
      interp_rethrow, interp_endObj]

namespace Indirect
section
variable {B : Type} [Body B] (tr : ATraits A R) {F : FOps L A R B X} {T : TOps (St L A R B) A X} (S : Same F T)

theorem interp_makeFwd (a : A) (d : Addr) (u : Fwd X) : Same F T → interp (F.makeFwd a d u) = T.makeFwd a d u := by
  intro S
  cases u
  · exact S.make _ _ _
  · exact S.copyCtor _ _ _
  · exact S.moveCtor _ _ _

theorem interp_assignFwd (d : Addr) (u : Fwd X) : Same F T → interp (F.assignFwd d u) = T.assignFwd d u := by
  intro S
  cases u
  · exact S.assignArg _ _
  · exact S.copyAssign _ _
  · exact S.moveAssign _ _

theorem interp_valueless (x : L) : interp (valueless x : Prog L A R B _) = Verif.Indirect.valueless x := by
  simp only [valueless, Verif.Indirect.valueless, interp_bind, interp_getH, interp_pure]
theorem interp_getAllocator (x : L) : interp (getAllocator x : Prog L A R B _) = Verif.Indirect.getAllocator x := by
  simp only [getAllocator, Verif.Indirect.getAllocator, interp_bind, interp_getH, interp_pure]
theorem interp_deref (x : L) : interp (deref x : Prog L A R B _) = Verif.Indirect.deref x := by
  simp only [deref, Verif.Indirect.deref, interp_bind, interp_getH]
  congr 1; funext h; cases h.p <;> rfl
theorem interp_arrow (x : L) : interp (arrow x : Prog L A R B _) = Verif.Indirect.arrow x := by
  simp only [arrow, Verif.Indirect.arrow, interp_bind, interp_getH]
  congr 1; funext h; cases h.p <;> rfl
theorem interp_constructFrom (a : A) (k : A → Addr → Prog L A R B Unit) :
    interp (constructFrom tr a k) = Verif.Indirect.constructFrom tr a (fun b m => interp (k b m)) := by
  simp only [constructFrom, Verif.Indirect.constructFrom, interp_bind, interp_allocate, interp_onThrow, interp_deallocate,
    interp_pure]

include S in
theorem interp_destroyWith (a : A) (p : Addr) : interp (destroyWith tr F a p) = Verif.Indirect.destroyWith tr T a p := by
  simp only [destroyWith, Verif.Indirect.destroyWith, interp_bind, interp_deallocate, S.dtor]
include S in
theorem interp_reset (x : L) : interp (reset tr F x) = Verif.Indirect.reset tr T x := by
  simp only [reset, Verif.Indirect.reset, interp_bind, interp_noexceptIf, interp_getH]
  congr 1; congr 1; funext h
  cases h.p with
  | none => rfl
  | some p => simp only [interp_bind, interp_destroyWith tr S, interp_setP]
include S in
theorem interp_ctorCopyA (a : A) (y : L) : interp (ctorCopyA tr F a y) = Verif.Indirect.ctorCopyA tr T a y := by
  simp only [ctorCopyA, Verif.Indirect.ctorCopyA, interp_bind, interp_valueless, interp_ite, interp_pure, interp_deref,
    interp_constructFrom, S.copyCtor]
include S in
theorem interp_ctorCopy (y : L) : interp (ctorCopy tr F y) = Verif.Indirect.ctorCopy tr T y := by
  simp only [ctorCopy, Verif.Indirect.ctorCopy, interp_bind, interp_getH, interp_ctorCopyA tr S]
include S in
theorem interp_ctorMoveA (a : A) (y : L) : interp (ctorMoveA tr F a y) = Verif.Indirect.ctorMoveA tr T a y := by
  simp only [ctorMoveA, Verif.Indirect.ctorMoveA, interp_bind, interp_noexceptIf, interp_getH, interp_ite, interp_setP,
    interp_pure, interp_valueless, interp_deref, interp_constructFrom, S.moveCtor]
include S in
theorem interp_ctorMove (y : L) : interp (ctorMove tr F y) = Verif.Indirect.ctorMove tr T y := by
  simp only [ctorMove, Verif.Indirect.ctorMove, interp_bind, interp_noexceptIf, interp_getH, interp_ctorMoveA tr S]
include S in
theorem interp_dtor (x : L) : interp (dtor tr F x) = Verif.Indirect.dtor tr T x := by
  simp only [dtor, Verif.Indirect.dtor, interp_bind, interp_noexceptIf, interp_reset tr S, interp_endLife]
include S in
theorem interp_assignCopy (x y : L) : interp (assignCopy tr F x y) = Verif.Indirect.assignCopy tr T x y := by
  simp only [assignCopy, Verif.Indirect.assignCopy, interp_bind, interp_getH, interp_ite, interp_setP, interp_pure,
    interp_valueless, interp_deref, interp_constructFrom, S.copyCtor, S.copyAssign, S.assignable, interp_reset tr S,
    interp_setAlloc]
include S in
theorem interp_assignMove (x y : L) : interp (assignMove tr F x y) = Verif.Indirect.assignMove tr T x y := by
  simp only [assignMove, Verif.Indirect.assignMove, interp_bind, interp_noexceptIf, interp_getH, interp_ite, interp_setP,
    interp_pure, interp_valueless, interp_deref, interp_constructFrom, S.moveCtor, interp_reset tr S, interp_setAlloc]
include S in
theorem interp_assignFrom (x : L) (u : Fwd X) : interp (assignFrom tr F x u) = Verif.Indirect.assignFrom tr T x u := by
  simp only [assignFrom, Verif.Indirect.assignFrom, interp_bind, interp_getH, interp_ite, interp_setP, interp_pure,
    interp_valueless, interp_deref, interp_constructFrom, interp_makeFwd _ _ _ S, interp_assignFwd _ _ S]
theorem interp_swap (x y : L) : interp (swap tr x y : Prog L A R B _) = Verif.Indirect.swap tr x y := by
  simp only [swap, Verif.Indirect.swap, interp_bind, interp_noexceptIf, interp_getH, interp_ite, interp_setP, interp_setAlloc,
    interp_undef]
theorem interp_friendSwap (x y : L) : interp (friendSwap tr x y : Prog L A R B _) = Verif.Indirect.friendSwap tr x y := by
  simp only [friendSwap, Verif.Indirect.friendSwap, interp_noexceptIf, interp_swap]

end

section
variable (tr : ATraits A R) {F : FOps L A R (Obj V) X} {T : TOps (St L A R (Obj V)) A X} (S : Same F T)

theorem interp_evalSrc (u : Src L X) : interp (evalSrc u : Prog L A R (Obj V) _) = Verif.Indirect.evalSrc u := by
  cases u <;> simp only [evalSrc, Verif.Indirect.evalSrc, interp_bind, interp_deref, interp_pure]

include S in
theorem interp_construct (a : Option A) (c : Ctor L X) :
    interp (construct tr F a c) = Verif.Indirect.construct tr T a c := by
  cases a <;> cases c <;>
    simp only [construct, Verif.Indirect.construct, interp_bind, interp_evalSrc, ctorDefault, Verif.Indirect.ctorDefault,
      ctorFrom, Verif.Indirect.ctorFrom, ctorInPlace, Verif.Indirect.ctorInPlace, ctorIlist, Verif.Indirect.ctorIlist,
      ctorDefaultA, Verif.Indirect.ctorDefaultA, ctorFromA, Verif.Indirect.ctorFromA, ctorInPlaceA,
      Verif.Indirect.ctorInPlaceA, ctorIlistA, Verif.Indirect.ctorIlistA, ctorInPlaceOneA, Verif.Indirect.ctorInPlaceOneA,
      interp_constructFrom, S.make, interp_makeFwd _ _ _ S, interp_pure]

include S in
/-- Running the program of a call without interruption is the call. -/
theorem interp_step (o : Op L A V X) : interp (step tr F o) = Verif.Indirect.step tr T o := by
  cases o <;>
    simp only [step, Verif.Indirect.step, interp_bind, interp_construct tr S, interp_emplace, interp_pure,
      interp_ctorCopy tr S, interp_ctorCopyA tr S, interp_ctorMove tr S, interp_ctorMoveA tr S, interp_dtor tr S,
      interp_assignCopy tr S, interp_assignMove tr S, interp_assignFrom tr S, interp_evalSrc, interp_deref, interp_arrow,
      interp_readObj, interp_writeObj, interp_valueless, interp_getAllocator, interp_swap, interp_friendSwap]

end
end Indirect
end

/-! polymorphic.h -/
section
variable {L A R Ty V X : Type} [DecidableEq L] [DecidableEq R] [DecidableEq Ty]

theorem interp_readCB (q : Addr) : interp (readCB q : Prog L A R (PBody Ty V) _) = Verif.readCB q := by
  simp only [readCB, Verif.readCB, interp_bind, interp_readBody]
  congr 1; funext b; cases b <;> rfl
theorem interp_readAny (q : Addr) : interp (readAny q : Prog L A R (PBody Ty V) _) = Verif.readAny q := by
  simp only [readAny, Verif.readAny, interp_bind, interp_readCB]
  congr 1; funext c; cases c.u <;> rfl
theorem interp_readU (ty : Ty) (q : Addr) : interp (readU ty q : Prog L A R (PBody Ty V) _) = Verif.readU ty q := by
  simp only [readU, Verif.readU, interp_bind, interp_readCB]
  congr 1; funext c
  cases c.u with
  | none => rfl
  | some v => simp only [interp_ite, interp_pure, interp_undef]
theorem interp_writeU (q : Addr) (v : V) : interp (writeU q v : Prog L A R (PBody Ty V) _) = Verif.writeU q v := by
  simp only [writeU, Verif.writeU, interp_bind, interp_readCB]
  congr 1; funext c
  cases c.u with
  | none => rfl
  | some v => simp only [interp_writeBody]
theorem interp_beginU (ty : Ty) (q : Addr) (v : V) (how : How) :
    interp (beginU ty q v how : Prog L A R (PBody Ty V) _) = Verif.beginU ty q v how := by
  funext s
  refine (interp_prim _ s).trans ?_
  simp only [Act.exec, Verif.beginU]
  rcases s.heap q with _ | ⟨r, _ | ⟨t, p, _ | w⟩⟩
  · rfl
  · rfl
  · by_cases h : t = ty <;> simp [h, ofExec] <;> rfl
  · rfl
theorem interp_endU (ty : Ty) (q : Addr) : interp (endU ty q : Prog L A R (PBody Ty V) _) = Verif.endU ty q := by
  simp only [endU, Verif.endU, interp_bind, interp_readU, interp_readCB, interp_writeBody, interp_emit]
theorem interp_finishU (ty : Ty) (q : Addr) (how : How) (r : Except Exn V) :
    interp (finishU ty q how r : Prog L A R (PBody Ty V) _) = Verif.finishU ty q how r := by
  cases r
  · rfl
  · exact interp_beginU _ _ _ _
theorem interp_beginCB (ty : Ty) (q : Addr) : interp (beginCB ty q : Prog L A R (PBody Ty V) _) = Verif.beginCB ty q := by
  funext s
  refine (interp_prim _ s).trans ?_
  simp only [Act.exec, Verif.beginCB]
  rcases s.heap q with _ | ⟨r, _ | w⟩
  · rfl
  · simp [ofExec]; rfl
  · rfl
theorem interp_abortCB (q : Addr) : interp (abortCB q : Prog L A R (PBody Ty V) _) = Verif.abortCB q := by
  simp only [abortCB, Verif.abortCB, interp_bind, interp_readCB]
  congr 1; funext c
  cases c.u with
  | none => simp only [interp_writeBody]
  | some v => rfl
theorem interp_setCBp (q r : Addr) : interp (setCBp q r : Prog L A R (PBody Ty V) _) = Verif.setCBp q r := by
  simp only [setCBp, Verif.setCBp, interp_bind, interp_readCB, interp_writeBody]

/-- The operations of the owned types as programs and as transitions. -/
structure PSame (F : FPOps L A R (PBody Ty V) Ty X) (P : POps (St L A R (PBody Ty V)) A Ty X) : Prop where
  base : F.base = P.base
  make : ∀ ty a d xs, interp (F.make ty a d xs) = P.make ty a d xs
  copyCtor : ∀ ty a d q, interp (F.copyCtor ty a d q) = P.copyCtor ty a d q
  moveCtor : ∀ ty a d q, interp (F.moveCtor ty a d q) = P.moveCtor ty a d q
  dtor : ∀ ty a d, interp (F.dtor ty a d) = P.dtor ty a d
  block : ∀ a d m, interp (F.block a d m) = P.block a d (interp m)

theorem plainP_same (P : PSpec Ty V X) : PSame (plainP P : FPOps L A R (PBody Ty V) Ty X) (Verif.plainP P) := by
  constructor
  · rfl
  all_goals
    intros
    simp only [plainP, Verif.plainP, interp_bind, interp_readU, interp_writeU, interp_choose, interp_finishU, interp_endU]

namespace Polymorphic
section
variable (tr : ATraits A R) {F : FPOps L A R (PBody Ty V) Ty X} {P : POps (St L A R (PBody Ty V)) A Ty X} (S : PSame F P)

theorem interp_makeFwd (ty : Ty) (a : A) (d : Addr) (u : Fwd X) : PSame F P → interp (F.makeFwd ty a d u) = P.makeFwd ty a d u := by
  intro S
  cases u
  · exact S.make _ _ _ _
  · exact S.copyCtor _ _ _ _
  · exact S.moveCtor _ _ _ _

theorem interp_cbCtor (ty : Ty) (a : A) (mem : Addr) (k : A → Addr → Prog L A R (PBody Ty V) Unit) :
    interp (cbCtor ty a mem k) = Verif.Polymorphic.cbCtor ty a mem (fun b m => interp (k b m)) := by
  simp only [cbCtor, Verif.Polymorphic.cbCtor, interp_bind, interp_beginCB, interp_onThrow, interp_abortCB, interp_setCBp]
include S in
theorem interp_create (ty : Ty) (a : A) (k : A → Addr → Prog L A R (PBody Ty V) Unit) :
    interp (createControlBlock tr F ty a k) = Verif.Polymorphic.createControlBlock tr P ty a (fun b m => interp (k b m)) := by
  simp only [createControlBlock, Verif.Polymorphic.createControlBlock, interp_bind, interp_allocate, interp_onThrow,
    interp_deallocate, interp_pure, S.block, interp_cbCtor]
include S in
theorem interp_vclone (q : Addr) (a : A) : interp (vclone tr F q a) = Verif.Polymorphic.vclone tr P q a := by
  simp only [vclone, Verif.Polymorphic.vclone, clone, Verif.Polymorphic.clone, interp_bind, interp_readCB, interp_allocate,
    interp_onThrow, interp_deallocate, interp_pure, S.block, interp_cbCtor, S.copyCtor]
include S in
theorem interp_vmove (q : Addr) (a : A) : interp (vmove tr F q a) = Verif.Polymorphic.vmove tr P q a := by
  simp only [vmove, Verif.Polymorphic.vmove, moveCB, Verif.Polymorphic.moveCB, interp_bind, interp_readCB, interp_allocate,
    interp_onThrow, interp_deallocate, interp_pure, S.block, interp_cbCtor, S.moveCtor]
include S in
theorem interp_vdestroy (q : Addr) (a : A) : interp (vdestroy tr F q a) = Verif.Polymorphic.vdestroy tr P q a := by
  simp only [vdestroy, Verif.Polymorphic.vdestroy, destroyCB, Verif.Polymorphic.destroyCB, interp_bind, interp_readCB,
    interp_deallocate, S.dtor]
theorem interp_valueless (x : L) : interp (valueless x : Prog L A R (PBody Ty V) _) = Verif.Polymorphic.valueless x := by
  simp only [valueless, Verif.Polymorphic.valueless, interp_bind, interp_getH, interp_pure]
theorem interp_getAllocator (x : L) :
    interp (getAllocator x : Prog L A R (PBody Ty V) _) = Verif.Polymorphic.getAllocator x := by
  simp only [getAllocator, Verif.Polymorphic.getAllocator, interp_bind, interp_getH, interp_pure]
theorem interp_derefCB (x : L) : interp (derefCB x : Prog L A R (PBody Ty V) _) = Verif.Polymorphic.derefCB x := by
  simp only [derefCB, Verif.Polymorphic.derefCB, interp_bind, interp_getH]
  congr 1; funext h; cases h.p <;> rfl
theorem interp_deref (x : L) : interp (deref x : Prog L A R (PBody Ty V) _) = Verif.Polymorphic.deref x := by
  simp only [deref, Verif.Polymorphic.deref, interp_bind, interp_derefCB, interp_readCB]
  congr 1; funext q; congr 1; funext c; cases c.p <;> rfl
theorem interp_arrow (x : L) : interp (arrow x : Prog L A R (PBody Ty V) _) = Verif.Polymorphic.arrow x := by
  simp only [arrow, Verif.Polymorphic.arrow, interp_bind, interp_derefCB, interp_readCB]
  congr 1; funext q; congr 1; funext c; cases c.p <;> rfl
include S in
theorem interp_reset (x : L) : interp (reset tr F x) = Verif.Polymorphic.reset tr P x := by
  simp only [reset, Verif.Polymorphic.reset, interp_bind, interp_noexceptIf, interp_getH]
  congr 1; congr 1; funext h
  cases h.p with
  | none => rfl
  | some p => simp only [interp_bind, interp_vdestroy tr S, interp_setP]
include S in
theorem interp_ctorCopyA (a : A) (y : L) : interp (ctorCopyA tr F a y) = Verif.Polymorphic.ctorCopyA tr P a y := by
  simp only [ctorCopyA, Verif.Polymorphic.ctorCopyA, interp_bind, interp_valueless, interp_ite, interp_pure, interp_derefCB,
    interp_vclone tr S]
include S in
theorem interp_ctorCopy (y : L) : interp (ctorCopy tr F y) = Verif.Polymorphic.ctorCopy tr P y := by
  simp only [ctorCopy, Verif.Polymorphic.ctorCopy, interp_bind, interp_getH, interp_ctorCopyA tr S]
include S in
theorem interp_ctorMoveA (a : A) (y : L) : interp (ctorMoveA tr F a y) = Verif.Polymorphic.ctorMoveA tr P a y := by
  simp only [ctorMoveA, Verif.Polymorphic.ctorMoveA, interp_bind, interp_noexceptIf, interp_getH, interp_ite, interp_setP,
    interp_pure, interp_valueless, interp_derefCB, interp_vmove tr S]
include S in
theorem interp_ctorMove (y : L) : interp (ctorMove tr F y) = Verif.Polymorphic.ctorMove tr P y := by
  simp only [ctorMove, Verif.Polymorphic.ctorMove, interp_bind, interp_noexceptIf, interp_getH, interp_ctorMoveA tr S]
include S in
theorem interp_dtor (x : L) : interp (dtor tr F x) = Verif.Polymorphic.dtor tr P x := by
  simp only [dtor, Verif.Polymorphic.dtor, interp_bind, interp_noexceptIf, interp_reset tr S, interp_endLife]
include S in
theorem interp_assignCopy (x y : L) : interp (assignCopy tr F x y) = Verif.Polymorphic.assignCopy tr P x y := by
  simp only [assignCopy, Verif.Polymorphic.assignCopy, interp_bind, interp_getH, interp_ite, interp_setP, interp_pure,
    interp_valueless, interp_derefCB, interp_vclone tr S, interp_reset tr S, interp_setAlloc]
include S in
theorem interp_assignMove (x y : L) : interp (assignMove tr F x y) = Verif.Polymorphic.assignMove tr P x y := by
  simp only [assignMove, Verif.Polymorphic.assignMove, interp_bind, interp_noexceptIf, interp_getH, interp_ite, interp_setP,
    interp_pure, interp_valueless, interp_derefCB, interp_vmove tr S, interp_reset tr S, interp_setAlloc]
theorem interp_swap (x y : L) : interp (swap tr x y : Prog L A R (PBody Ty V) _) = Verif.Polymorphic.swap tr x y := by
  simp only [swap, Verif.Polymorphic.swap, interp_bind, interp_noexceptIf, interp_getH, interp_ite, interp_setP,
    interp_setAlloc, interp_undef]
theorem interp_friendSwap (x y : L) :
    interp (friendSwap tr x y : Prog L A R (PBody Ty V) _) = Verif.Polymorphic.friendSwap tr x y := by
  simp only [friendSwap, Verif.Polymorphic.friendSwap, interp_noexceptIf, interp_swap]
theorem interp_evalSrc (u : Src L X) : interp (evalSrc u : Prog L A R (PBody Ty V) _) = Verif.Polymorphic.evalSrc u := by
  cases u <;> simp only [evalSrc, Verif.Polymorphic.evalSrc, interp_bind, interp_deref, interp_pure]

include S in
theorem interp_construct (a : Option A) (c : PCtor L Ty X) :
    interp (construct tr F a c) = Verif.Polymorphic.construct tr P a c := by
  cases a <;> cases c <;>
    simp only [construct, Verif.Polymorphic.construct, interp_bind, interp_evalSrc, ctorDefault, Verif.Polymorphic.ctorDefault,
      ctorFrom, Verif.Polymorphic.ctorFrom, ctorInPlace, Verif.Polymorphic.ctorInPlace, ctorIlist,
      Verif.Polymorphic.ctorIlist, ctorDefaultA, Verif.Polymorphic.ctorDefaultA, ctorFromA, Verif.Polymorphic.ctorFromA,
      ctorInPlaceA, Verif.Polymorphic.ctorInPlaceA, ctorIlistA, Verif.Polymorphic.ctorIlistA, interp_create tr S, S.make, S.base,
      interp_makeFwd _ _ _ _ S, interp_pure]

include S in
/-- Running the program of a call without interruption is the call. -/
theorem interp_step (o : POp L A Ty V X) : interp (step tr F o) = Verif.Polymorphic.step tr P o := by
  cases o <;>
    simp only [step, Verif.Polymorphic.step, interp_bind, interp_construct tr S, interp_emplace, interp_pure,
      interp_ctorCopy tr S, interp_ctorCopyA tr S, interp_ctorMove tr S, interp_ctorMoveA tr S, interp_dtor tr S,
      interp_assignCopy tr S, interp_assignMove tr S, interp_deref, interp_arrow,
      interp_readAny, interp_writeU, interp_valueless, interp_getAllocator, interp_swap, interp_friendSwap]

end
end Polymorphic
end
end Fine
end Verif
