import Verif.Proofs.Keeps
import Verif.Spec.Run
import Verif.Spec.Table

/-! The trace protocol is kept by every function of `indirect`. -/

set_option autoImplicit false
set_option linter.unusedSectionVars false
set_option linter.unusedSimpArgs false

namespace Verif

/-- The primitives of the machine keep a predicate, if only objects in `W` are written to. -/
structure PrimsKeep {L A R B : Type} [DecidableEq L] [DecidableEq R] [Body B]
    (P : St L A R B → Prop) (W : L → Prop) : Prop where
  getH : ∀ l, Keeps P (getH l)
  setP : ∀ l, W l → ∀ p, Keeps P (setP l p)
  setAlloc : ∀ l, W l → ∀ a, Keeps P (setAlloc l a)
  emplace : ∀ l, W l → ∀ h, Keeps P (emplace l h)
  endLife : ∀ l, W l → Keeps P (endLife l)
  allocate : ∀ r, Keeps P (allocate r)
  deallocate : ∀ r p, Keeps P (deallocate r p)

/-- The operations of the owned type keep a predicate. -/
structure TKeep {σ A X : Type} (P : σ → Prop) (T : TOps σ A X) : Prop where
  make : ∀ a d xs, Keeps P (T.make a d xs)
  copyCtor : ∀ a d q, Keeps P (T.copyCtor a d q)
  moveCtor : ∀ a d q, Keeps P (T.moveCtor a d q)
  copyAssign : ∀ d q, Keeps P (T.copyAssign d q)
  moveAssign : ∀ d q, Keeps P (T.moveAssign d q)
  assignArg : ∀ d x, Keeps P (T.assignArg d x)
  dtor : ∀ a d, Keeps P (T.dtor a d)

theorem TKeep.makeFwd {σ A X : Type} {P : σ → Prop} {T : TOps σ A X} (h : TKeep P T) (a : A) (d : Addr) (u : Fwd X) :
    Keeps P (T.makeFwd a d u) := by
  cases u
  · exact h.make _ _ _
  · exact h.copyCtor _ _ _
  · exact h.moveCtor _ _ _

theorem TKeep.assignFwd {σ A X : Type} {P : σ → Prop} {T : TOps σ A X} (h : TKeep P T) (d : Addr) (u : Fwd X) :
    Keeps P (T.assignFwd d u) := by
  cases u
  · exact h.assignArg _ _
  · exact h.copyAssign _ _
  · exact h.moveAssign _ _

section
variable {L A R V X : Type} [DecidableEq L] [DecidableEq R]

theorem traceOk_prims {B : Type} [Body B] (hraw : Body.occupied (Body.raw : B) = false) :
    PrimsKeep (TraceOk : St L A R B → Prop) (fun _ => True) where
  getH := keeps_getH
  setP l _ := keeps_setP l
  setAlloc l _ := keeps_setAlloc l
  emplace l _ := keeps_emplace l
  endLife l _ := keeps_endLife l
  allocate := keeps_allocate hraw
  deallocate := keeps_deallocate

/-- Running past a read of a live object. -/
theorem readObj_all {α : Type} {P : St L A R (Obj V) → Prop} {p : Addr} {f : V → M (St L A R (Obj V)) α}
    {s : St L A R (Obj V)} (h : ∀ r v, s.heap p = some ⟨r, some v⟩ → (f v s).All P) :
    ((readObj p >>= f) s).All P := by
  cases hp : s.heap p with
  | none => simp [M.bind_eq, readObj, readBody, hp, Res.All]
  | some c =>
    rcases c with ⟨r, _ | v⟩
    · simp [M.bind_eq, readObj, readBody, hp, Res.All]
    · have := h r v hp
      simpa [M.bind_eq, readObj, readBody, hp] using this

theorem shape_live {s : St L A R (Obj V)} {p : Addr} {r : R} {v : V} (h : s.heap p = some ⟨r, some v⟩) :
    Spec.liveAt (shape s.heap) p = true := by
  simp [Spec.liveAt, shape, h, Body.occupied]

theorem shape_write {heap : Addr → Option (Cell R (Obj V))} {p : Addr} {r : R} {v w : V}
    (h : heap p = some ⟨r, some v⟩) : shape (upd heap p (some ⟨r, some w⟩)) = shape heap := by
  funext q; simp only [shape, upd]; split
  · rename_i e; subst e; simp [h, Body.occupied]
  · rfl

theorem finish_traceOk {s : St L A R (Obj V)} {p : Addr} {how : How} (r : Except Exn V)
    (hs : TraceOk s) (hh : Spec.sourceOk (shape s.heap) how = true) :
    (finish p how r s).All TraceOk := by
  cases r with
  | error e => exact hs
  | ok v =>
    simp only [finish, beginObj]
    cases hp : s.heap p with
    | none => trivial
    | some c =>
      rcases c with ⟨r, _ | w⟩
      · refine replay_snoc hs ?_
        have : shape s.heap p = some ⟨r, false⟩ := by simp [shape, hp, Body.occupied]
        simp [Spec.obey, this, hh, shape_upd, Body.occupied]
      · trivial

theorem rethrow_all {σ : Type} {P : σ → Prop} {e : Option Exn} {s : σ} (h : P s) :
    (rethrow e s).All P := by cases e <;> exact h

theorem assign_traceOk {s s' : St L A R (Obj V)} {d : Addr} {how : How} {e : Option Exn} (hs : TraceOk s)
    (hd : Spec.liveAt (shape s.heap) d = true) (hh : Spec.sourceOk (shape s.heap) how = true)
    (h1 : shape s'.heap = shape s.heap) (h2 : s'.trace = s.trace ++ [.assign d how]) :
    (rethrow e s').All TraceOk := by
  apply rethrow_all
  show Spec.replay _ = _
  rw [h1, h2]
  exact replay_snoc hs (by simp [Spec.obey, hd, hh])

theorem traceOk_plain (T : TSpec V X) : TKeep (TraceOk : St L A R (Obj V) → Prop) (plain T) where
  make _ d xs := by
    intro s hs
    exact finish_traceOk (s := { s with ti := s.ti + 1 }) _ hs rfl
  copyCtor _ d q := by
    refine fun s hs => readObj_all fun r v hq => ?_
    exact finish_traceOk (s := { s with ti := s.ti + 1 }) _ hs (shape_live hq)
  moveCtor _ d q := by
    refine fun s hs => readObj_all fun r v hq => ?_
    have : TraceOk { s with ti := s.ti + 1, heap := upd s.heap q (some ⟨r, some (T.move v (s.env.choice s.ti)).2⟩) } := by
      unfold TraceOk at hs ⊢; rw [shape_write hq]; exact hs
    have := finish_traceOk (p := d) (how := .moveOf q) (T.move v (s.env.choice s.ti)).1 this (shape_live (upd_same _ _ _))
    simpa [M.bind_eq, choose, writeObj, readObj, readBody, writeBody, hq] using this
  copyAssign d q := by
    refine fun s hs => readObj_all fun r v hd => readObj_all fun r' w hq => ?_
    have := assign_traceOk (e := (T.copyAssign v w (s.env.choice s.ti)).1) (s' := { s with
        ti := s.ti + 1, trace := s.trace ++ [.assign d (.copyOf q)]
        heap := upd s.heap d (some ⟨r, some (T.copyAssign v w (s.env.choice s.ti)).2⟩) })
      hs (shape_live hd) (how := .copyOf q) (shape_live hq) (shape_write hd) rfl
    simpa [M.bind_eq, choose, emit, writeObj, readObj, readBody, writeBody, hd] using this
  moveAssign d q := by
    refine fun s hs => readObj_all fun r v hd => readObj_all fun r' w hq => ?_
    have hd' : ∃ v', upd s.heap q (some ⟨r', some (T.moveAssign v w (s.env.choice s.ti)).2.2⟩) d =
        some ⟨r, some v'⟩ := by
      by_cases e : d = q
      · subst e; rw [hd] at hq; simp at hq; exact ⟨_, by rw [upd_same, hq.1]⟩
      · exact ⟨v, by rw [upd_other _ _ e, hd]⟩
    obtain ⟨v', hd'⟩ := hd'
    have := assign_traceOk (e := (T.moveAssign v w (s.env.choice s.ti)).1) (s' := { s with
        ti := s.ti + 1, trace := s.trace ++ [.assign d (.moveOf q)]
        heap := upd (upd s.heap q (some ⟨r', some (T.moveAssign v w (s.env.choice s.ti)).2.2⟩)) d
          (some ⟨r, some (T.moveAssign v w (s.env.choice s.ti)).2.1⟩) })
      hs (shape_live hd) (how := .moveOf q) (shape_live hq)
      (by show shape _ = _; rw [shape_write hd', shape_write hq]) rfl
    simpa [M.bind_eq, choose, emit, writeObj, readObj, readBody, writeBody, hd, hq, hd'] using this
  assignArg d x := by
    refine fun s hs => readObj_all fun r v hd => ?_
    have := assign_traceOk (e := (T.assignArg v x (s.env.choice s.ti)).1) (s' := { s with
        ti := s.ti + 1, trace := s.trace ++ [.assign d .args]
        heap := upd s.heap d (some ⟨r, some (T.assignArg v x (s.env.choice s.ti)).2⟩) })
      hs (shape_live hd) (how := .args) rfl (shape_write hd) rfl
    simpa [M.bind_eq, choose, emit, writeObj, readObj, readBody, writeBody, hd] using this
  dtor _ p := by
    refine fun s hs => readObj_all fun r v hp => ?_
    have : TraceOk { s with heap := upd s.heap p (some ⟨r, none⟩), trace := s.trace ++ [.destroy p] } := by
      refine replay_snoc hs ?_
      have : shape s.heap p = some ⟨r, true⟩ := by simp [shape, hp, Body.occupied]
      simp [Spec.obey, this, shape_upd, Body.occupied]
    simpa [M.bind_eq, writeBody, hp, emit, Res.All] using this

end

namespace Indirect
section
variable {L A R B V X : Type} [DecidableEq L] [DecidableEq R] [Body B]

/-- Structural rules for `Keeps`. -/
macro "keeps_step" : tactic => `(tactic| first
  | with_reducible exact keeps_pure _
  | with_reducible exact keeps_undef _
  | with_reducible exact keeps_throwE _
  | with_reducible apply keeps_noexcept
  | with_reducible apply keeps_onThrow
  | with_reducible apply keeps_bind
  | with_reducible apply keeps_ite
  | with_reducible intro _)

variable {P : St L A R B → Prop} {W : L → Prop} (K : PrimsKeep P W) (tr : ATraits A R) {T : TOps (St L A R B) A X} (KT : TKeep P T)
include K

theorem keeps_valueless (l : L) : Keeps P (valueless l) := by
  unfold valueless
  repeat' first | with_reducible exact K.getH _ | keeps_step

theorem keeps_getAllocator (l : L) : Keeps P (getAllocator l) := by
  unfold getAllocator
  repeat' first | with_reducible exact K.getH _ | keeps_step

theorem keeps_deref (l : L) : Keeps P (deref l) := by
  unfold deref
  repeat' first | with_reducible exact K.getH _ | keeps_step | split

theorem keeps_arrow (l : L) : Keeps P (arrow l) := by
  unfold arrow
  repeat' first | with_reducible exact K.getH _ | keeps_step | split

theorem keeps_constructFrom (a : A) {k : A → Addr → M (St L A R B) Unit} (h : ∀ b p, Keeps P (k b p)) :
    Keeps P (constructFrom tr a k) := by
  unfold constructFrom
  repeat' first | with_reducible exact K.allocate _ | with_reducible exact K.deallocate _ _ | with_reducible exact h _ _ | keeps_step

theorem keeps_swap (x y : L) (hx : W x) (hy : W y) : Keeps P (swap tr x y) := by
  unfold swap
  repeat' first | with_reducible exact K.getH _ | with_reducible exact K.setP _ (by assumption) _ | with_reducible exact K.setAlloc _ (by assumption) _ | keeps_step

theorem keeps_friendSwap (x y : L) (hx : W x) (hy : W y) : Keeps P (friendSwap tr x y) := by
  unfold friendSwap
  repeat' first | with_reducible exact keeps_swap K tr _ _ (by assumption) (by assumption) | keeps_step

include KT

theorem keeps_reset (l : L) (hl : W l) : Keeps P (reset tr T l) := by
  unfold reset destroyWith
  repeat' first | with_reducible exact K.getH _ | with_reducible exact K.setP _ (by assumption) _ | with_reducible exact K.deallocate _ _ | with_reducible exact KT.dtor _ _ | keeps_step | split

theorem keeps_dtor (l : L) (hl : W l) : Keeps P (dtor tr T l) := by
  unfold dtor
  repeat' first | with_reducible exact keeps_reset K tr KT _ (by assumption) | with_reducible exact K.endLife _ (by assumption) | keeps_step

theorem keeps_ctorCopyA (a : A) (l : L) : Keeps P (ctorCopyA tr T a l) := by
  unfold ctorCopyA
  repeat' first
    | with_reducible exact keeps_valueless K _ | with_reducible exact keeps_deref K _
    | with_reducible exact keeps_constructFrom K tr _ fun _ _ => KT.copyCtor _ _ _ | keeps_step

theorem keeps_ctorCopy (l : L) : Keeps P (ctorCopy tr T l) := by
  unfold ctorCopy
  repeat' first | with_reducible exact K.getH _ | with_reducible exact keeps_ctorCopyA K tr KT _ _ | keeps_step

theorem keeps_ctorMoveA (a : A) (l : L) (hl : W l) : Keeps P (ctorMoveA tr T a l) := by
  unfold ctorMoveA
  repeat' first
    | with_reducible exact K.getH _ | with_reducible exact K.setP _ (by assumption) _ | with_reducible exact keeps_valueless K _ | with_reducible exact keeps_deref K _
    | with_reducible exact keeps_constructFrom K tr _ fun _ _ => KT.moveCtor _ _ _ | keeps_step

theorem keeps_ctorMove (l : L) (hl : W l) : Keeps P (ctorMove tr T l) := by
  unfold ctorMove
  repeat' first | with_reducible exact K.getH _ | with_reducible exact keeps_ctorMoveA K tr KT _ _ (by assumption) | keeps_step

theorem keeps_assignCopy (x y : L) (hx : W x) : Keeps P (assignCopy tr T x y) := by
  unfold assignCopy
  repeat' first
    | with_reducible exact K.getH _ | with_reducible exact K.setP _ (by assumption) _ | with_reducible exact K.setAlloc _ (by assumption) _ | with_reducible exact keeps_valueless K _ | with_reducible exact keeps_deref K _
    | with_reducible exact keeps_reset K tr KT _ (by assumption) | with_reducible exact KT.copyAssign _ _
    | with_reducible exact keeps_constructFrom K tr _ fun _ _ => KT.copyCtor _ _ _ | keeps_step

theorem keeps_assignMove (x y : L) (hx : W x) (hy : W y) : Keeps P (assignMove tr T x y) := by
  unfold assignMove
  repeat' first
    | with_reducible exact K.getH _ | with_reducible exact K.setP _ (by assumption) _ | with_reducible exact K.setAlloc _ (by assumption) _ | with_reducible exact keeps_valueless K _ | with_reducible exact keeps_deref K _
    | with_reducible exact keeps_reset K tr KT _ (by assumption)
    | with_reducible exact keeps_constructFrom K tr _ fun _ _ => KT.moveCtor _ _ _ | keeps_step

theorem keeps_assignFrom (x : L) (u : Fwd X) (hx : W x) : Keeps P (assignFrom tr T x u) := by
  unfold assignFrom
  repeat' first
    | with_reducible exact K.getH _ | with_reducible exact K.setP _ (by assumption) _ | with_reducible exact keeps_valueless K _ | with_reducible exact keeps_deref K _
    | with_reducible exact KT.assignFwd _ _
    | with_reducible exact keeps_constructFrom K tr _ fun _ _ => KT.makeFwd _ _ _ | keeps_step

end

section
variable {L A R V X : Type} [DecidableEq L] [DecidableEq R]
variable {P : St L A R (Obj V) → Prop} {W : L → Prop} (K : PrimsKeep P W) (tr : ATraits A R) {T : TOps (St L A R (Obj V)) A X}
  (KT : TKeep P T)
include K

theorem keeps_evalSrc (u : Src L X) : Keeps P (evalSrc u) := by
  cases u <;> unfold evalSrc <;> repeat' first | with_reducible exact keeps_deref K _ | keeps_step

include KT

theorem keeps_construct (a : Option A) (c : Ctor L X) : Keeps P (construct tr T a c) := by
  cases a <;> cases c <;>
    simp only [construct, ctorDefault, ctorDefaultA, ctorFrom, ctorFromA, ctorInPlace, ctorInPlaceA,
      ctorInPlaceOneA, ctorIlist, ctorIlistA]
  all_goals
    repeat' first
      | with_reducible exact keeps_evalSrc K _
      | with_reducible exact keeps_constructFrom K tr _ fun _ _ => KT.makeFwd _ _ _
      | with_reducible exact keeps_constructFrom K tr _ fun _ _ => KT.make _ _ _
      | keeps_step

theorem keeps_step' (hr : ∀ p, Keeps P (readObj p)) (hw : ∀ p v, Keeps P (writeObj p v)) (o : Op L A V X)
    (ho : ∀ l ∈ Spec.rebinds o, W l) : Keeps P (step tr T o) := by
  cases o
  case make x a c =>
    have hx : W x := ho _ (by simp [Spec.rebinds])
    simp only [step]
    repeat' first | with_reducible exact keeps_construct K tr KT _ _ | with_reducible exact K.emplace _ (by assumption) _ | keeps_step
  all_goals
    simp only [Spec.rebinds, List.mem_cons, List.not_mem_nil, or_false, forall_eq_or_imp, forall_eq] at ho
    simp only [step]
    try have ho1 := ho.1
    try have ho2 := ho.2
    repeat' first
      | with_reducible exact keeps_evalSrc K _
      | with_reducible exact keeps_construct K tr KT _ _
      | with_reducible exact K.emplace _ (by assumption) _
      | with_reducible exact keeps_ctorCopy K tr KT _
      | with_reducible exact keeps_ctorCopyA K tr KT _ _
      | with_reducible exact keeps_ctorMove K tr KT _ (by assumption)
      | with_reducible exact keeps_ctorMoveA K tr KT _ _ (by assumption)
      | with_reducible exact keeps_dtor K tr KT _ (by assumption)
      | with_reducible exact keeps_assignCopy K tr KT _ _ (by assumption)
      | with_reducible exact keeps_assignMove K tr KT _ _ (by assumption) (by assumption)
      | with_reducible exact keeps_assignFrom K tr KT _ _ (by assumption)
      | with_reducible exact keeps_swap K tr _ _ (by assumption) (by assumption)
      | with_reducible exact keeps_friendSwap K tr _ _ (by assumption) (by assumption)
      | with_reducible exact keeps_valueless K _
      | with_reducible exact keeps_getAllocator K _
      | with_reducible exact keeps_deref K _
      | with_reducible exact keeps_arrow K _
      | with_reducible exact hr _
      | with_reducible exact hw _ _
      | keeps_step

end

section
variable {L A R V X : Type} [DecidableEq L] [DecidableEq R] (tr : ATraits A R) (T : TSpec V X)

theorem traceOk_readObj (p : Addr) : Keeps (TraceOk : St L A R (Obj V) → Prop) (readObj p) := by
  unfold readObj
  repeat' first | with_reducible exact keeps_readBody _ | keeps_step | split

theorem traceOk_writeObj (p : Addr) (v : V) : Keeps (TraceOk : St L A R (Obj V) → Prop) (writeObj p v) := by
  refine fun s hs => readObj_all fun r w hp => ?_
  have : TraceOk { s with heap := upd s.heap p (some ⟨r, some v⟩) } := by
    unfold TraceOk at hs ⊢; rw [shape_write hp]; exact hs
  simpa [writeBody, hp, Res.All] using this

/-- Every call extends the trace according to the protocol. -/
theorem traceOk_call (o : Op L A V X) (e : Env) (s : St L A R (Obj V)) (h : TraceOk s) :
    (call tr (plain T) o e s).All TraceOk :=
  keeps_step' (traceOk_prims rfl) tr (traceOk_plain T) traceOk_readObj traceOk_writeObj o (fun _ _ => trivial) _ h

end
end Indirect
end Verif
