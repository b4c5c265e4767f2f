import Verif.Proofs.Counting

/-! Allocators that record calls of `construct` and `destroy`: `polymorphic`. -/

set_option autoImplicit false
set_option linter.unusedSectionVars false
set_option linter.unusedSimpArgs false

namespace Verif

namespace Counted
open Spec (Slot slotAt customCalls)
open Polymorphic

section
variable {L A R Ty V X : Type} [DecidableEq L] [DecidableEq R] [DecidableEq Ty]
variable {I : St L A R (PBody Ty V) → Prop} {E : St L A R (PBody Ty V) → Prop} {Q : List (Ev R) → Prop} {Q' : R → List (Ev R) → Prop}

theorem sim_readCB (q : Addr) : Sim I (readCB q) (readCB q) (fun c t => I t ∧ ∃ r, t.heap q = some ⟨r, some c⟩) E := by
  unfold readCB
  refine sim_bind (sim_readBody q) fun b => ?_
  cases b with
  | none => exact sim_undef _
  | some v => exact sim_pure _ fun _ h => h

theorem sim_readCB' (q : Addr) : Sim I (readCB q) (readCB q) (fun _ => I) E :=
  sim_mono (sim_readCB q) (fun _ h => h) (fun _ _ h => h.1) (fun _ h => h)

theorem sim_readAny (q : Addr) : Sim I (readAny q) (readAny q) (fun _ => I) E := by
  unfold readAny
  refine sim_bind (sim_readCB' q) fun c => ?_
  rcases c with ⟨t, p, _ | v⟩
  · exact sim_undef _
  · exact sim_pure _ fun _ h => h

theorem sim_readU (ty : Ty) (q : Addr) : Sim I (readU ty q) (readU ty q) (fun _ => I) E := by
  unfold readU
  refine sim_bind (sim_readCB' q) fun c => ?_
  rcases c with ⟨t, p, _ | v⟩
  · exact sim_undef _
  · exact sim_ite (sim_pure _ fun _ h => h) (sim_undef _)

theorem sim_writeU (hI : Soft I) (q : Addr) (v : V) : Sim I (writeU q v) (writeU q v) (fun _ => I) E := by
  unfold writeU
  refine sim_bind (sim_readCB q) fun c => ?_
  rcases c with ⟨t, p, _ | w⟩
  · exact sim_undef _
  · exact sim_mono (sim_writeBody hI q _) (fun t h => ⟨h.1, by obtain ⟨r, hr⟩ := h.2; exact ⟨r, _, hr, rfl⟩⟩)
      (fun _ _ h => h) (fun _ h => h)

theorem sim_setCBp (hI : Soft I) (q r : Addr) : Sim I (setCBp q r) (setCBp q r) (fun _ => I) E := by
  unfold setCBp
  refine sim_bind (sim_readCB q) fun c => ?_
  exact sim_mono (sim_writeBody hI q _) (fun t h => ⟨h.1, by obtain ⟨r, hr⟩ := h.2; exact ⟨r, _, hr, rfl⟩⟩)
    (fun _ _ h => h) (fun _ h => h)

theorem sim_abortCB (hI : Soft I) (q : Addr) : Sim I (abortCB q) (abortCB q) (fun _ => I) E := by
  unfold abortCB
  refine sim_bind (sim_readCB q) fun c => ?_
  rcases c with ⟨t, p, _ | w⟩
  · exact sim_mono (sim_writeBody hI q _) (fun t h => ⟨h.1, by obtain ⟨r, hr⟩ := h.2; exact ⟨r, _, hr, rfl⟩⟩)
      (fun _ _ h => h) (fun _ h => h)
  · exact sim_undef _

theorem sim_beginCB (hI : Soft I) (ty : Ty) (q : Addr) : Sim I (beginCB ty q) (beginCB ty q) (fun _ => I) E := by
  intro t ht
  unfold beginCB
  rw [show (bare t).heap q = t.heap q from rfl]
  cases hp : t.heap q with
  | none => trivial
  | some x =>
    rcases x with ⟨r, _ | c⟩
    · exact ⟨rfl, rfl, hI t q r none _ ht hp rfl⟩
    · trivial

theorem sim_finishU (hQ : Stable Q) (ty : Ty) (mem : Addr) (r : R) (how : How) (v : Except Exn V) :
    Sim (InvAt Q mem r : St L A R (PBody Ty V) → Prop) (finishU ty mem how v) (finishU ty mem how v) (fun _ => Pend Q mem r) (Inv Q) := by
  cases v with
  | error e => exact sim_throwE _ fun _ h => h.1
  | ok v =>
    intro t ⟨ht, b, hp, hb⟩
    show Agree _ _ (beginU ty mem v how t) (beginU ty mem v how (bare t))
    unfold beginU
    rw [show (bare t).heap mem = t.heap mem from rfl, hp]
    rcases b with _ | ⟨ty', p, _ | w⟩
    · trivial
    · simp only
      by_cases e : ty' = ty
      · rw [if_pos e, if_pos e]
        refine ⟨rfl, by simp [bare, isCustom], fun q => ?_, hQ _ _ rfl ht.2, some ⟨ty', p, some v⟩, by simp [upd], rfl⟩
        have := ht.1 q
        simp only [slotAt_snoc, this, Option.bind_some, Slot.next]
        by_cases e : q = mem
        · subst e; simp [hp, shape, Body.occupied]
        · simp [e, upd]
      · rw [if_neg e, if_neg e]; trivial
    · trivial

theorem sim_endU (hQ : Stable Q) (ty : Ty) (p : Addr) (r : R) :
    Sim (Inv Q : St L A R (PBody Ty V) → Prop) (endU ty p) (endU ty p) (fun _ => Drop Q p r false) E := by
  unfold endU
  refine sim_bind (J := fun _ t => Inv Q t ∧ ∃ r ty p' v, t.heap p = some ⟨r, some ⟨ty, p', some v⟩⟩) ?_ fun v => ?_
  · unfold readU
    refine sim_bind (sim_readCB p) fun c => ?_
    rcases c with ⟨t, p', _ | v⟩
    · exact sim_undef _
    · exact sim_ite (sim_pure _ fun _ h => ⟨h.1, by obtain ⟨r, hr⟩ := h.2; exact ⟨r, _, _, _, hr⟩⟩) (sim_undef _)
  · intro t ⟨ht, r0, ty', p', w, hp⟩
    simp only [readCB, M.bind_eq, readBody, writeBody, emit]
    rw [show (bare t).heap p = t.heap p from rfl, hp]
    simp only [M.pure_eq, hp, show (bare t).heap p = t.heap p from rfl]
    refine ⟨rfl, by simp [bare, isCustom], r0, _, by simp [upd]; rfl, rfl, ?_⟩
    rintro rfl
    refine ⟨fun q => ?_, hQ _ _ rfl ht.2⟩
    have := ht.1 q
    simp only [slotAt_snoc, this, Option.bind_some, Slot.next]
    by_cases e : q = p
    · subst e; simp [hp, shape, Body.occupied]
    · simp [e, upd]

variable {tr : ATraits A R} {P : PSpec Ty V X}

/-- `k` with records does what `k'` does without, in fresh storage. -/
def SimPK (tr : ATraits A R) (Q : List (Ev R) → Prop) (Q' : R → List (Ev R) → Prop) (k k' : A → Addr → M (St L A R (PBody Ty V)) Unit) : Prop :=
  ∀ a mem, Sim (InvAt Q mem (tr.res a)) (k a mem) (k' a mem) (fun _ => Inv (Q' (tr.res a))) (Inv Q)

/-- What the records of `construct` do to `Q`; `Q'` may depend on the memory resource. -/
def MakesP (Q : List (Ev R) → Prop) (Q' : R → List (Ev R) → Prop) : Prop := ∀ r p t, Q t → Q' r (t ++ [.custom .construct .object r p])

theorem simP_make (hQ : Stable Q) (hm : MakesP Q Q') (ty : Ty) (xs : TArgs X) :
    SimPK (L := L) tr Q Q' (fun a mem => (countingP tr (plainP P)).make ty a mem xs) (fun a mem => (plainP P).make ty a mem xs) := by
  intro a mem
  refine sim_record (J := fun _ => Pend Q mem (tr.res a)) ?_ _ _ _ _ (pend_done (hm _ _))
  exact sim_bind (sim_choose invAt_loose) fun c => sim_finishU hQ _ _ _ _ _

theorem simP_copyCtor (hQ : Stable Q) (hm : MakesP Q Q') (ty : Ty) (q : Addr) :
    SimPK (L := L) tr Q Q' (fun a mem => (countingP tr (plainP P)).copyCtor ty a mem q) (fun a mem => (plainP P).copyCtor ty a mem q) := by
  intro a mem
  refine sim_record (J := fun _ => Pend Q mem (tr.res a)) ?_ _ _ _ _ (pend_done (hm _ _))
  exact sim_bind (sim_readU _ _) fun v => sim_bind (sim_choose invAt_loose) fun c => sim_finishU hQ _ _ _ _ _

theorem simP_moveCtor (hQ : Stable Q) (hm : MakesP Q Q') (ty : Ty) (q : Addr) :
    SimPK (L := L) tr Q Q' (fun a mem => (countingP tr (plainP P)).moveCtor ty a mem q) (fun a mem => (plainP P).moveCtor ty a mem q) := by
  intro a mem
  refine sim_record (J := fun _ => Pend Q mem (tr.res a)) ?_ _ _ _ _ (pend_done (hm _ _))
  exact sim_bind (sim_readU _ _) fun v => sim_bind (sim_choose invAt_loose) fun c =>
    sim_bind (sim_writeU invAt_soft _ _) fun _ => sim_finishU hQ _ _ _ _ _

theorem simP_makeFwd (hQ : Stable Q) (hm : MakesP Q Q') (ty : Ty) (u : Fwd X) :
    SimPK (L := L) tr Q Q' (fun a mem => (countingP tr (plainP P)).makeFwd ty a mem u) (fun a mem => (plainP P).makeFwd ty a mem u) := by
  cases u with
  | arg x => exact simP_make hQ hm ty _
  | lval q => exact simP_copyCtor hQ hm ty q
  | rval q => exact simP_moveCtor hQ hm ty q

/-- `cbCtor` records one object. -/
theorem sim_cbCtor (ty : Ty) (a : A) (mem : Addr) {k k' : A → Addr → M (St L A R (PBody Ty V)) Unit} (hk : SimPK tr Q Q' k k') :
    Sim (InvAt Q mem (tr.res a)) (cbCtor ty a mem k) (cbCtor ty a mem k') (fun _ => Inv (Q' (tr.res a))) (Inv Q) := by
  unfold cbCtor
  exact sim_bind (sim_beginCB invAt_soft ty mem) fun _ => sim_bind (sim_onThrow (hk a mem) (sim_abortCB inv_soft mem)) fun _ =>
    sim_setCBp inv_soft mem mem

/-- What the record of a control block does. -/
def Closes (Q' : R → List (Ev R) → Prop) (Q : List (Ev R) → Prop) : Prop := ∀ r p t, Q' r t → Q (t ++ [.custom .construct .block r p])

theorem inv_block (hb : Closes Q' Q) (r : R) (p : Addr) (t : St L A R (PBody Ty V)) (h : Inv (Q' r) t) :
    Inv Q { t with trace := t.trace ++ [.custom .construct .block r p] } := by
  refine ⟨fun q => ?_, hb _ _ _ h.2⟩
  simp [slotAt_snoc, h.1 q, Slot.next]

theorem sim_createControlBlock (hQ : Stable Q) (hb : Closes Q' Q) (ty : Ty) (a : A)
    {k k' : A → Addr → M (St L A R (PBody Ty V)) Unit} (hk : SimPK tr Q Q' k k') :
    Sim (Inv Q) (createControlBlock tr (countingP tr (plainP P)) ty a k) (createControlBlock tr (plainP P) ty a k')
      (fun _ => Inv Q) (Inv Q) := by
  unfold createControlBlock
  refine sim_bind (sim_allocate hQ rfl _) fun mem => sim_bind (J := fun _ => Inv Q) ?_ fun _ => sim_pure _ fun _ h => h
  refine sim_onThrow (F := Inv Q) ?_ (sim_deallocate hQ _ _)
  exact sim_record (sim_cbCtor ty a mem hk) _ _ _ _ (inv_block hb _ _)

theorem sim_destroyCB (hQ : Stable Q) (hd : Drops Q) (ty : Ty) (q : Addr) (a : A) :
    Sim (Inv Q : St L A R (PBody Ty V) → Prop) (destroyCB tr (countingP tr (plainP P)) ty q a) (destroyCB tr (plainP P) ty q a)
      (fun _ => Inv Q) E := by
  unfold destroyCB
  refine sim_bind (J := fun _ => Drop Q q (tr.res a) true) ?_ fun _ => sim_drop hQ _ _
  exact sim_record (sim_endU hQ ty q (tr.res a)) _ _ _ _ (drop_done (hd _ _))

theorem sim_vclone (hQ : Stable Q) (hm : MakesP Q Q') (hb : Closes Q' Q) (q : Addr) (a : A) :
    Sim (Inv Q : St L A R (PBody Ty V) → Prop) (vclone tr (countingP tr (plainP P)) q a) (vclone tr (plainP P) q a)
      (fun _ => Inv Q) (Inv Q) :=
  sim_bind (sim_readCB' q) fun c => sim_createControlBlock hQ hb c.ty a (simP_copyCtor hQ hm c.ty q)

theorem sim_vmove (hQ : Stable Q) (hm : MakesP Q Q') (hb : Closes Q' Q) (q : Addr) (a : A) :
    Sim (Inv Q : St L A R (PBody Ty V) → Prop) (vmove tr (countingP tr (plainP P)) q a) (vmove tr (plainP P) q a)
      (fun _ => Inv Q) (Inv Q) :=
  sim_bind (sim_readCB' q) fun c => sim_createControlBlock hQ hb c.ty a (simP_moveCtor hQ hm c.ty q)

theorem sim_vdestroy (hQ : Stable Q) (hd : Drops Q) (q : Addr) (a : A) :
    Sim (Inv Q : St L A R (PBody Ty V) → Prop) (vdestroy tr (countingP tr (plainP P)) q a) (vdestroy tr (plainP P) q a)
      (fun _ => Inv Q) E :=
  sim_bind (sim_readCB' q) fun c => sim_destroyCB hQ hd c.ty q a

theorem simP_valueless (x : L) : Sim (Inv Q : St L A R (PBody Ty V) → Prop) (valueless x) (valueless x) (fun _ => Inv Q) E :=
  sim_bind (sim_getH inv_loose x) fun _ => sim_pure _ fun _ h => h

theorem simP_getAllocator (x : L) : Sim (Inv Q : St L A R (PBody Ty V) → Prop) (getAllocator x) (getAllocator x) (fun _ => Inv Q) E :=
  sim_bind (sim_getH inv_loose x) fun _ => sim_pure _ fun _ h => h

theorem simP_derefCB (x : L) : Sim (Inv Q : St L A R (PBody Ty V) → Prop) (derefCB x) (derefCB x) (fun _ => Inv Q) E :=
  sim_bind (sim_getH inv_loose x) fun h => by
    rcases h with ⟨_ | p, a⟩
    · exact sim_undef _
    · exact sim_pure _ fun _ h => h

theorem simP_deref (x : L) : Sim (Inv Q : St L A R (PBody Ty V) → Prop) (deref x) (deref x) (fun _ => Inv Q) E :=
  sim_bind (simP_derefCB x) fun q => sim_bind (sim_readCB' q) fun c => by
    rcases c with ⟨t, _ | p, v⟩
    · exact sim_undef _
    · exact sim_pure _ fun _ h => h

theorem simP_arrow (x : L) : Sim (Inv Q : St L A R (PBody Ty V) → Prop) (arrow x) (arrow x) (fun _ => Inv Q) E := simP_deref x

theorem simP_reset (hQ : Stable Q) (hd : Drops Q) (x : L) :
    Sim (Inv Q : St L A R (PBody Ty V) → Prop) (reset tr (countingP tr (plainP P)) x) (reset tr (plainP P) x) (fun _ => Inv Q) E := by
  unfold reset
  refine sim_noexcept (sim_bind (sim_getH inv_loose x) fun h => ?_)
  rcases h with ⟨_ | p, a⟩
  · exact sim_pure _ fun _ h => h
  · exact sim_bind (sim_vdestroy hQ hd p a) fun _ => sim_setP inv_loose x none

theorem simP_evalSrc (u : Src L X) : Sim (Inv Q : St L A R (PBody Ty V) → Prop) (evalSrc u) (evalSrc u) (fun _ => Inv Q) E := by
  cases u with
  | arg x => exact sim_pure _ fun _ h => h
  | lval y => exact sim_bind (simP_deref y) fun _ => sim_pure _ fun _ h => h
  | rval y => exact sim_bind (simP_deref y) fun _ => sim_pure _ fun _ h => h

theorem simP_with (hQ : Stable Q) (hb : Closes Q' Q) (ty : Ty) (a : A) {k k' : A → Addr → M (St L A R (PBody Ty V)) Unit}
    (hk : SimPK tr Q Q' k k') :
    Sim (Inv Q) (do let p ← createControlBlock tr (countingP tr (plainP P)) ty a k; pure (⟨some p, a⟩ : Handle A))
      (do let p ← createControlBlock tr (plainP P) ty a k'; pure ⟨some p, a⟩) (fun _ => Inv Q) (Inv Q) :=
  sim_bind (sim_createControlBlock hQ hb ty a hk) fun _ => sim_pure _ fun _ h => h

theorem simP_construct (hQ : Stable Q) (hm : MakesP Q Q') (hb : Closes Q' Q) (a : Option A) (c : PCtor L Ty X) :
    Sim (Inv Q : St L A R (PBody Ty V) → Prop) (construct tr (countingP tr (plainP P)) a c) (construct tr (plainP P) a c)
      (fun _ => Inv Q) (Inv Q) := by
  cases a <;> cases c
  · exact simP_with hQ hb _ _ (simP_make hQ hm _ _)
  · exact sim_bind (simP_evalSrc _) fun _ => simP_with hQ hb _ _ (simP_makeFwd hQ hm _ _)
  · exact simP_with hQ hb _ _ (simP_make hQ hm _ _)
  · exact simP_with hQ hb _ _ (simP_make hQ hm _ _)
  · exact simP_with hQ hb _ _ (simP_make hQ hm _ _)
  · exact sim_bind (simP_evalSrc _) fun _ => simP_with hQ hb _ _ (simP_makeFwd hQ hm _ _)
  · exact simP_with hQ hb _ _ (simP_make hQ hm _ _)
  · exact simP_with hQ hb _ _ (simP_make hQ hm _ _)

theorem simP_ctorCopyA (hQ : Stable Q) (hm : MakesP Q Q') (hb : Closes Q' Q) (a : A) (y : L) :
    Sim (Inv Q : St L A R (PBody Ty V) → Prop) (ctorCopyA tr (countingP tr (plainP P)) a y) (ctorCopyA tr (plainP P) a y)
      (fun _ => Inv Q) (Inv Q) := by
  refine sim_bind (simP_valueless y) fun b => sim_ite ?_ (sim_pure _ fun _ h => h)
  exact sim_bind (simP_derefCB y) fun q => sim_bind (sim_vclone hQ hm hb q a) fun _ => sim_pure _ fun _ h => h

theorem simP_ctorCopy (hQ : Stable Q) (hm : MakesP Q Q') (hb : Closes Q' Q) (y : L) :
    Sim (Inv Q : St L A R (PBody Ty V) → Prop) (ctorCopy tr (countingP tr (plainP P)) y) (ctorCopy tr (plainP P) y)
      (fun _ => Inv Q) (Inv Q) :=
  sim_bind (sim_getH inv_loose y) fun _ => simP_ctorCopyA hQ hm hb _ y

theorem simP_ctorMoveA (hQ : Stable Q) (hm : MakesP Q Q') (hb : Closes Q' Q) (a : A) (y : L) :
    Sim (Inv Q : St L A R (PBody Ty V) → Prop) (ctorMoveA tr (countingP tr (plainP P)) a y) (ctorMoveA tr (plainP P) a y)
      (fun _ => Inv Q) (Inv Q) := by
  refine sim_noexcept (sim_bind (sim_getH inv_loose y) fun o => ?_)
  refine sim_ite (sim_bind (sim_setP inv_loose y none) fun _ => sim_pure _ fun _ h => h) ?_
  refine sim_ite (sim_bind (sim_setP inv_loose y none) fun _ => sim_pure _ fun _ h => h) ?_
  refine sim_bind (simP_valueless y) fun b => sim_ite ?_ (sim_pure _ fun _ h => h)
  exact sim_bind (simP_derefCB y) fun q => sim_bind (sim_vmove hQ hm hb q a) fun _ => sim_pure _ fun _ h => h

theorem simP_ctorMove (hQ : Stable Q) (hm : MakesP Q Q') (hb : Closes Q' Q) (y : L) :
    Sim (Inv Q : St L A R (PBody Ty V) → Prop) (ctorMove tr (countingP tr (plainP P)) y) (ctorMove tr (plainP P) y)
      (fun _ => Inv Q) (Inv Q) :=
  sim_noexcept (sim_bind (sim_getH inv_loose y) fun _ => simP_ctorMoveA hQ hm hb _ y)

theorem simP_dtor (hQ : Stable Q) (hd : Drops Q) (x : L) :
    Sim (Inv Q : St L A R (PBody Ty V) → Prop) (dtor tr (countingP tr (plainP P)) x) (dtor tr (plainP P) x) (fun _ => Inv Q) E :=
  sim_noexcept (sim_bind (simP_reset hQ hd x) fun _ => sim_endLife inv_loose x)

theorem simP_propagate (b : Bool) (x y : L) {f : M (St L A R (PBody Ty V)) L} (hf : Sim (Inv Q) f f (fun _ => Inv Q) (Inv Q)) :
    Sim (Inv Q : St L A R (PBody Ty V) → Prop) (if b = true then (do let o ← getH y; setAlloc x o.alloc; f) else f)
      (if b = true then (do let o ← getH y; setAlloc x o.alloc; f) else f) (fun _ => Inv Q) (Inv Q) :=
  sim_ite (sim_bind (sim_getH inv_loose y) fun _ => sim_bind (sim_setAlloc inv_loose x _) fun _ => hf) hf

theorem simP_assignCopy (hQ : Stable Q) (hm : MakesP Q Q') (hb : Closes Q' Q) (hd : Drops Q) (x y : L) :
    Sim (Inv Q : St L A R (PBody Ty V) → Prop) (assignCopy tr (countingP tr (plainP P)) x y) (assignCopy tr (plainP P) x y)
      (fun _ => Inv Q) (Inv Q) := by
  have hp := simP_propagate (Q := Q) tr.pocca x y (f := (pure x : M (St L A R (PBody Ty V)) L)) (sim_pure _ fun _ h => h)
  refine sim_ite (sim_pure _ fun _ h => h) (sim_bind (simP_valueless y) fun b => ?_)
  refine sim_ite (sim_bind (simP_reset hQ hd x) fun _ => hp) ?_
  refine sim_bind (simP_derefCB y) fun q => sim_bind (sim_getH inv_loose x) fun t => sim_bind (sim_getH inv_loose y) fun o => ?_
  exact sim_bind (sim_vclone hQ hm hb q _) fun p => sim_bind (simP_reset hQ hd x) fun _ => sim_bind (sim_setP inv_loose x _) fun _ => hp

theorem simP_assignMove (hQ : Stable Q) (hm : MakesP Q Q') (hb : Closes Q' Q) (hd : Drops Q) (x y : L) :
    Sim (Inv Q : St L A R (PBody Ty V) → Prop) (assignMove tr (countingP tr (plainP P)) x y) (assignMove tr (plainP P) x y)
      (fun _ => Inv Q) (Inv Q) := by
  have hp := simP_propagate (Q := Q) tr.pocma x y (f := (pure x : M (St L A R (PBody Ty V)) L)) (sim_pure _ fun _ h => h)
  refine sim_noexcept (sim_ite (sim_pure _ fun _ h => h) (sim_bind (simP_valueless y) fun b => ?_))
  refine sim_ite (sim_bind (simP_reset hQ hd x) fun _ => hp) ?_
  refine sim_bind (sim_getH inv_loose x) fun t => sim_bind (sim_getH inv_loose y) fun o => ?_
  refine sim_ite ?_ ?_
  · exact sim_bind (sim_setP inv_loose x _) fun _ => sim_bind (sim_setP inv_loose y _) fun _ => sim_bind (simP_reset hQ hd y) fun _ => hp
  · exact sim_bind (simP_derefCB y) fun q => sim_bind (sim_vmove hQ hm hb q _) fun p =>
      sim_bind (simP_reset hQ hd x) fun _ => sim_bind (sim_setP inv_loose x _) fun _ => hp

theorem simP_swap (x y : L) : Sim (Inv Q : St L A R (PBody Ty V) → Prop) (swap tr x y) (swap tr x y) (fun _ => Inv Q) (Inv Q) := by
  refine sim_noexcept (sim_bind (sim_getH inv_loose x) fun t => sim_bind (sim_getH inv_loose y) fun o => ?_)
  refine sim_ite ?_ (sim_ite ?_ (sim_undef _))
  · exact sim_bind (sim_setAlloc inv_loose x _) fun _ => sim_bind (sim_setAlloc inv_loose y _) fun _ =>
      sim_bind (sim_setP inv_loose x _) fun _ => sim_setP inv_loose y _
  · exact sim_bind (sim_setP inv_loose x _) fun _ => sim_setP inv_loose y _

theorem sim_pstep (hQ : Stable Q) (hm : MakesP Q Q') (hb : Closes Q' Q) (hd : Drops Q) (o : POp L A Ty V X) :
    Sim (Inv Q : St L A R (PBody Ty V) → Prop) (step tr (countingP tr (plainP P)) o) (step tr (plainP P) o)
      (fun _ => Inv Q) (Inv Q) := by
  have fin : ∀ {α : Type} (a : α), Sim (Inv Q : St L A R (PBody Ty V) → Prop) (pure a) (pure a) (fun _ => Inv Q) (Inv Q) :=
    fun a => sim_pure a fun _ h => h
  cases o with
  | make x a c => exact sim_bind (simP_construct hQ hm hb a c) fun _ => sim_bind (sim_emplace inv_loose x _) fun _ => fin _
  | copy x y => exact sim_bind (simP_ctorCopy hQ hm hb y) fun _ => sim_bind (sim_emplace inv_loose x _) fun _ => fin _
  | copyA x a y => exact sim_bind (simP_ctorCopyA hQ hm hb a y) fun _ => sim_bind (sim_emplace inv_loose x _) fun _ => fin _
  | move x y => exact sim_bind (simP_ctorMove hQ hm hb y) fun _ => sim_bind (sim_emplace inv_loose x _) fun _ => fin _
  | moveA x a y => exact sim_bind (simP_ctorMoveA hQ hm hb a y) fun _ => sim_bind (sim_emplace inv_loose x _) fun _ => fin _
  | destroy x => exact sim_bind (simP_dtor hQ hd x) fun _ => fin _
  | assignCopy x y => exact sim_bind (simP_assignCopy hQ hm hb hd x y) fun _ => fin _
  | assignMove x y => exact sim_bind (simP_assignMove hQ hm hb hd x y) fun _ => fin _
  | deref x => exact sim_bind (simP_deref x) fun _ => sim_bind (sim_readAny _) fun _ => fin _
  | arrow x => exact sim_bind (simP_arrow x) fun _ => sim_bind (sim_readAny _) fun _ => fin _
  | modify x f => exact sim_bind (simP_deref x) fun _ => sim_bind (sim_readAny _) fun _ => sim_bind (sim_writeU inv_soft _ _) fun _ => fin _
  | valueless x => exact sim_bind (simP_valueless x) fun _ => fin _
  | getAllocator x => exact sim_bind (simP_getAllocator x) fun _ => fin _
  | swap x y => exact sim_bind (simP_swap x y) fun _ => fin _
  | friendSwap x y => exact sim_bind (sim_noexcept (simP_swap x y)) fun _ => fin _

end
end Counted
end Verif
