import Verif.Spec.Fancy
import Verif.Proofs.Keeps

/-! The functions with other pointers do what they do with plain ones. -/

set_option autoImplicit false
set_option linter.unusedSectionVars false
set_option linter.unusedSimpArgs false

namespace Verif.Fancy
open Verif

section
variable {L A R B X P : Type} [DecidableEq L] [DecidableEq R] [Body B] {Q : Pointers L P}

/-- Corresponding results. -/
def RSame (Q : Pointers L P) {α β : Type} (r : α → β → Prop) : Res (FSt L A R B P) α → Res (St L A R B) β → Prop
  | .ok a s, .ok b t => r a b ∧ forget Q s = t
  | .threw e s, .threw e' t => e = e' ∧ forget Q s = t
  | .terminated, .terminated => True
  | .ub u, .ub u' => u = u'
  | .diverged, .diverged => True
  | _, _ => False

/-- Corresponding computations. -/
def Hom (Q : Pointers L P) {α β : Type} (r : α → β → Prop) (m : M (FSt L A R B P) α) (m' : M (St L A R B) β) : Prop :=
  ∀ s, RSame Q r (m s) (m' (forget Q s))

variable {α β γ δ : Type}

theorem Hom.pure {r : α → β → Prop} {a : α} {b : β} (h : r a b) : Hom (A := A) (R := R) (B := B) Q r (pure a) (pure b) :=
  fun _ => ⟨h, rfl⟩

theorem Hom.undef {r : α → β → Prop} (u : UB) : Hom (A := A) (R := R) (B := B) Q r (M.undef u) (M.undef u) := fun _ => rfl

theorem Hom.bind {r : α → β → Prop} {r' : γ → δ → Prop} {m : M (FSt L A R B P) α} {m' : M (St L A R B) β}
    {f : α → M (FSt L A R B P) γ} {f' : β → M (St L A R B) δ} (h : Hom Q r m m') (hf : ∀ a b, r a b → Hom Q r' (f a) (f' b)) :
    Hom Q r' (m >>= f) (m' >>= f') := by
  intro s
  have := h s
  show RSame Q r' (M.andThen m f s) (M.andThen m' f' (forget Q s))
  unfold M.andThen
  revert this
  cases m s <;> cases m' (forget Q s) <;> simp only [RSame, false_implies, forall_const, imp_self] <;> try trivial
  · rintro ⟨hr, rfl⟩
    exact hf _ _ hr _

theorem Hom.onThrow {r : α → β → Prop} {m : M (FSt L A R B P) α} {m' : M (St L A R B) β} {c : M (FSt L A R B P) Unit} {c' : M (St L A R B) Unit}
    (h : Hom Q r m m') (hc : Hom Q (fun _ _ => True) c c') : Hom Q r (M.onThrow m c) (M.onThrow m' c') := by
  intro s
  have := h s
  unfold M.onThrow
  revert this
  cases m s <;> cases m' (forget Q s) <;> simp only [RSame, false_implies, forall_const, imp_self] <;> try trivial
  · rintro ⟨rfl, rfl⟩
    rename_i e t
    have := hc t
    revert this
    cases c t <;> cases c' (forget Q t) <;> simp only [RSame, false_implies, imp_self, true_and, forall_const] <;> try trivial

theorem Hom.noexceptIf {r : α → β → Prop} {m : M (FSt L A R B P) α} {m' : M (St L A R B) β} {b : Bool} (h : Hom Q r m m') :
    Hom Q r (M.noexceptIf b m) (M.noexceptIf b m') := by
  intro s
  have := h s
  unfold M.noexceptIf
  revert this
  cases m s <;> cases m' (forget Q s) <;> simp only [RSame, false_implies, forall_const, imp_self] <;> try trivial
  · rintro ⟨rfl, rfl⟩
    cases b <;> simp

theorem Hom.ite {r : α → β → Prop} {c : Prop} [Decidable c] {m n : M (FSt L A R B P) α} {m' n' : M (St L A R B) β} (h : Hom Q r m m')
    (h' : Hom Q r n n') : Hom Q r (if c then m else n) (if c then m' else n') := by
  split <;> assumption

/-- Does not change owners. -/
def Apart (m : M (St L A R B) α) : Prop := ∀ hs, Keeps (fun s => s.hs = hs) m

theorem Hom.outside {m : M (St L A R B) α} (h : Apart m) : Hom Q Eq (outside Q m) m := by
  intro s
  have := h (forget Q s).hs (forget Q s) rfl
  unfold Fancy.outside
  revert this
  cases m (forget Q s) with
  | ok a t =>
    intro ht
    refine ⟨rfl, ?_⟩
    cases t
    simp only [Res.All] at ht
    subst ht
    rfl
  | threw a t =>
    intro ht
    refine ⟨rfl, ?_⟩
    cases t
    simp only [Res.All] at ht
    subst ht
    rfl
  | terminated => exact fun _ => trivial
  | ub u => exact fun _ => rfl
  | diverged => exact fun _ => trivial

/-- Data members. -/
def plainH (Q : Pointers L P) (l : L) (h : FHandle A P) : Handle A := ⟨Q.target (.member l) h.p, h.alloc⟩

theorem forget_hs (s : FSt L A R B P) (l : L) : (forget Q s).hs l = (s.hs l).map (plainH Q l) := rfl

theorem Hom.getF (l : L) : Hom (A := A) (R := R) (B := B) Q (fun h h' => plainH Q l h = h') (getF l) (getH l) := by
  intro s
  unfold Fancy.getF getH
  rw [forget_hs]
  cases s.hs l with
  | none => rfl
  | some h => exact ⟨rfl, rfl⟩

theorem forget_upd (s : FSt L A R B P) (l : L) (h : Option (FHandle A P)) :
    forget Q { s with hs := upd s.hs l h } = { forget Q s with hs := upd (forget Q s).hs l (h.map (plainH Q l)) } := by
  unfold forget
  congr 1
  funext x
  simp only [upd]
  split
  · next e => subst e; rfl
  · rfl

theorem Hom.putP (l : L) (p : P) : Hom (A := A) (R := R) (B := B) Q (fun _ _ => True) (putP l p) (setP l (Q.target (.member l) p)) := by
  intro s
  unfold Fancy.putP setP
  rw [forget_hs]
  cases s.hs l with
  | none => rfl
  | some h => exact ⟨trivial, by rw [forget_upd]; rfl⟩

theorem Hom.putAlloc (l : L) (a : A) : Hom (R := R) (B := B) Q (fun _ _ => True) (putAlloc l a) (setAlloc l a) := by
  intro s
  unfold Fancy.putAlloc setAlloc
  rw [forget_hs]
  cases s.hs l with
  | none => rfl
  | some h => exact ⟨trivial, by rw [forget_upd]; rfl⟩

theorem Hom.putNew (l : L) (h : FHandle A P) : Hom (R := R) (B := B) Q (fun _ _ => True) (putNew l h) (emplace l (plainH Q l h)) := by
  intro s
  unfold Fancy.putNew emplace
  rw [forget_hs]
  cases s.hs l with
  | none => exact ⟨trivial, by rw [forget_upd]; rfl⟩
  | some h => rfl

theorem Hom.putEnd (l : L) : Hom (A := A) (R := R) (B := B) Q (fun _ _ => True) (putEnd l) (endLife l) := by
  intro s
  unfold Fancy.putEnd endLife
  rw [forget_hs]
  cases s.hs l with
  | none => rfl
  | some h => exact ⟨trivial, by rw [forget_upd]; rfl⟩

/-! ### The functions -/

variable {tr : ATraits A R} {T : TOps (St L A R B) A X} (hQ : Q.Sound)

/-- Operations of the owned type do not change owners. -/
structure ApartT (T : TOps (St L A R B) A X) : Prop where
  make : ∀ a d xs, Apart (T.make a d xs)
  copyCtor : ∀ a d q, Apart (T.copyCtor a d q)
  moveCtor : ∀ a d q, Apart (T.moveCtor a d q)
  copyAssign : ∀ d q, Apart (T.copyAssign d q)
  moveAssign : ∀ d q, Apart (T.moveAssign d q)
  assignArg : ∀ d x, Apart (T.assignArg d x)
  dtor : ∀ a d, Apart (T.dtor a d)

theorem Apart.allocate (r : R) : Apart (allocate r : M (St L A R B) Addr) := by
  intro hs s h
  unfold Verif.allocate
  simp only
  split
  · exact h
  · split <;> exact h

theorem Apart.deallocate (r : R) (p : Addr) : Apart (deallocate r p : M (St L A R B) Unit) := by
  intro hs s h
  unfold Verif.deallocate
  split
  · trivial
  · split
    · trivial
    · split
      · trivial
      · exact h

theorem ApartT.makeFwd (hT : ApartT T) (a : A) (d : Addr) (u : Fwd X) : Apart (T.makeFwd a d u) := by
  cases u <;> simp only [TOps.makeFwd]
  · exact hT.make _ _ _
  · exact hT.copyCtor _ _ _
  · exact hT.moveCtor _ _ _

theorem ApartT.assignFwd (hT : ApartT T) (d : Addr) (u : Fwd X) : Apart (T.assignFwd d u) := by
  cases u <;> simp only [TOps.assignFwd]
  · exact hT.assignArg _ _
  · exact hT.copyAssign _ _
  · exact hT.moveAssign _ _

theorem target_copy (hQ : Q.Sound) (s t : Site L) (p : P) : Q.target t (Q.copy s t p) = Q.target s p := hQ.target_point _ _

theorem hom_valueless (x : L) : Hom (A := A) (R := R) (B := B) Q Eq (valueless Q x) (Indirect.valueless x) := by
  unfold valueless Indirect.valueless
  refine (Hom.getF x).bind ?_
  rintro h _ rfl
  exact Hom.pure rfl

theorem hom_getAllocator (x : L) : Hom (A := A) (R := R) (B := B) Q Eq (getAllocator x) (Indirect.getAllocator x) := by
  unfold getAllocator Indirect.getAllocator
  refine (Hom.getF x).bind ?_
  rintro h _ rfl
  exact Hom.pure rfl

theorem hom_deref (x : L) : Hom (A := A) (R := R) (B := B) Q Eq (deref Q x) (Indirect.deref x) := by
  unfold deref Indirect.deref
  refine (Hom.getF x).bind ?_
  rintro h _ rfl
  simp only [plainH]
  cases Q.target (.member x) h.p with
  | none => exact Hom.undef _
  | some q => exact Hom.pure rfl

include hQ in
theorem hom_arrow (x : L) :
    Hom (A := A) (R := R) (B := B) Q (fun p q => Q.target arrowResult p = some q) (arrow Q x) (Indirect.arrow x) := by
  unfold arrow Indirect.arrow
  refine (Hom.getF x).bind ?_
  rintro h _ rfl
  simp only [plainH]
  cases ht : Q.target (.member x) h.p with
  | none => exact Hom.undef _
  | some q => exact Hom.pure (by rw [target_copy hQ, ht])

theorem hom_address {s : Site L} {p : P} {q : Addr} (h : Q.target s p = some q) {r : γ → δ → Prop} {f : Addr → M (FSt L A R B P) γ}
    {f' : M (St L A R B) δ} (hf : Hom Q r (f q) f') : Hom Q r (address Q s p >>= f) f' := by
  unfold address
  rw [h]
  exact hf

include hQ in
theorem hom_free {s : Site L} {p : P} {q : Addr} (r : R) (h : Q.target s p = some q) :
    Hom (A := A) (B := B) Q (fun _ _ => True) (free Q r s p) (deallocate r q) := by
  unfold free
  refine hom_address (q := q) (by rw [target_copy hQ, h]) ?_
  intro s
  have := Hom.outside (Q := Q) (Apart.deallocate (A := A) (B := B) (L := L) r q) s
  revert this
  cases outside Q (deallocate r q) s <;> cases deallocate r q (forget Q s) <;> simp [RSame]

include hQ in
theorem hom_constructFrom (a : A) {k : A → Addr → M (St L A R B) Unit} (hk : ∀ a d, Apart (k a d)) :
    Hom Q (fun p q => Q.target result p = some q) (constructFrom Q tr a k) (Indirect.constructFrom tr a k) := by
  unfold constructFrom Indirect.constructFrom
  refine (Hom.outside (Apart.allocate _)).bind ?_
  rintro q _ rfl
  have hm : Q.target mem (Q.point mem (some q)) = some q := hQ.target_point _ _
  refine Hom.bind (r := Eq) (Hom.onThrow (hom_address hm (Hom.outside (hk a q))) (hom_free hQ _ hm)) ?_
  intro _ _ _
  exact Hom.pure (by rw [target_copy hQ, hm])

include hQ in
theorem hom_destroyWith (hT : ApartT T) (a : A) {p : P} {q : Addr} (h : Q.target param p = some q) :
    Hom Q (fun _ _ => True) (destroyWith Q tr T a p) (Indirect.destroyWith tr T a q) := by
  unfold destroyWith Indirect.destroyWith
  refine hom_address h ?_
  refine (Hom.outside (hT.dtor a q)).bind ?_
  intro _ _ _
  exact hom_free hQ _ h

include hQ in
theorem hom_putP {l : L} {p : P} {o : Option Addr} (h : Q.target (.member l) p = o) :
    Hom (A := A) (R := R) (B := B) Q (fun _ _ => True) (putP l p) (setP l o) := h ▸ Hom.putP l p

include hQ in
theorem hom_reset (hT : ApartT T) (x : L) : Hom Q (fun _ _ => True) (reset Q tr T x) (Indirect.reset tr T x) := by
  unfold reset Indirect.reset
  refine Hom.noexceptIf ((Hom.getF x).bind ?_)
  rintro h _ rfl
  simp only [plainH]
  cases ht : Q.target (.member x) h.p with
  | none => exact Hom.pure trivial
  | some q =>
    simp only [reduceCtorEq, beq_iff_eq, if_false]
    refine (hom_destroyWith hQ hT h.alloc (by rw [target_copy hQ, ht])).bind ?_
    intro _ _ _
    exact hom_putP hQ (hQ.target_point _ _)

include hQ in
theorem hom_ctor (x : L) (a : A) {k : A → Addr → M (St L A R B) Unit} (hk : ∀ a d, Apart (k a d)) :
    Hom Q (fun h h' => plainH Q x h = h') (ctor Q tr x a k) (do let p ← Indirect.constructFrom tr a k; pure ⟨some p, a⟩) := by
  unfold ctor
  refine (hom_constructFrom hQ a hk).bind ?_
  intro p q hp
  exact Hom.pure (by simp only [plainH]; rw [target_copy hQ, hp])

include hQ in
theorem hom_ctorCopyA (hT : ApartT T) (x : L) (a : A) (y : L) :
    Hom Q (fun h h' => plainH Q x h = h') (ctorCopyA Q tr T x a y) (Indirect.ctorCopyA tr T a y) := by
  unfold ctorCopyA Indirect.ctorCopyA
  refine (hom_valueless y).bind ?_
  rintro b _ rfl
  cases b
  · simp only [Bool.false_eq_true, if_false]
    refine (hom_deref y).bind ?_
    rintro q _ rfl
    exact hom_ctor hQ x a (fun a d => hT.copyCtor a d q)
  · simp only [if_true]
    exact Hom.pure (by simp only [plainH, hQ.target_point])

include hQ in
theorem hom_ctorCopy (hT : ApartT T) (x y : L) :
    Hom Q (fun h h' => plainH Q x h = h') (ctorCopy Q tr T x y) (Indirect.ctorCopy tr T y) := by
  unfold ctorCopy Indirect.ctorCopy
  refine (Hom.getF y).bind ?_
  rintro h _ rfl
  exact hom_ctorCopyA hQ hT x _ y

include hQ in
theorem hom_ctorMoveA (hT : ApartT T) (x : L) (a : A) (y : L) :
    Hom Q (fun h h' => plainH Q x h = h') (ctorMoveA Q tr T x a y) (Indirect.ctorMoveA tr T a y) := by
  unfold ctorMoveA Indirect.ctorMoveA
  refine Hom.noexceptIf ((Hom.getF y).bind ?_)
  rintro h _ rfl
  have taken : Hom (A := A) (R := R) (B := B) Q (fun h h' => plainH Q x h = h')
      (do putP y (swapP Q (.member x) (.member y) (Q.point (.member x) none) h.p).2
          pure ⟨(swapP Q (.member x) (.member y) (Q.point (.member x) none) h.p).1, a⟩)
      (do setP y none; pure ⟨(plainH Q y h).p, a⟩) := by
    refine (hom_putP hQ ?_).bind ?_
    · simp only [swapP, target_copy hQ, hQ.target_point]
    · intro _ _ _
      exact Hom.pure (by simp only [plainH, swapP, target_copy hQ])
  refine Hom.ite taken (Hom.ite taken ?_)
  refine (hom_valueless y).bind ?_
  rintro b _ rfl
  refine Hom.ite ?_ ?_
  · refine (hom_deref y).bind ?_
    rintro q _ rfl
    exact hom_ctor hQ x a (fun a d => hT.moveCtor a d q)
  · exact Hom.pure (by simp only [plainH, hQ.target_point])

include hQ in
theorem hom_ctorMove (hT : ApartT T) (x y : L) :
    Hom Q (fun h h' => plainH Q x h = h') (ctorMove Q tr T x y) (Indirect.ctorMove tr T y) := by
  unfold ctorMove Indirect.ctorMove
  refine Hom.noexceptIf ((Hom.getF y).bind ?_)
  rintro h _ rfl
  exact hom_ctorMoveA hQ hT x _ y

include hQ in
theorem hom_dtor (hT : ApartT T) (x : L) : Hom Q (fun _ _ => True) (dtor Q tr T x) (Indirect.dtor tr T x) := by
  unfold dtor Indirect.dtor
  refine Hom.noexceptIf ((hom_reset hQ hT x).bind ?_)
  intro _ _ _
  exact Hom.putEnd x

/-- The new allocator. -/
theorem hom_update (c : Bool) (x y : L) :
    Hom (A := A) (R := R) (B := B) Q Eq
      (do
        if c then
          let o ← getF y
          putAlloc x o.alloc
        pure x)
      (do
        if c then
          let o ← getH y
          setAlloc x o.alloc
        pure x) := by
  refine Hom.ite ?_ (Hom.pure rfl)
  refine (Hom.getF y).bind ?_
  rintro h _ rfl
  exact (Hom.putAlloc x h.alloc).bind (fun _ _ _ => Hom.pure rfl)

include hQ in
theorem hom_replace (hT : ApartT T) (x : L) (a : A) {k : A → Addr → M (St L A R B) Unit} (hk : ∀ a d, Apart (k a d)) {r : γ → δ → Prop}
    {f : Unit → M (FSt L A R B P) γ} {f' : Unit → M (St L A R B) δ} (hf : ∀ a b, True → Hom Q r (f a) (f' b)) :
    Hom Q r
      (constructFrom Q tr a k >>= fun p => reset Q tr T x >>= fun _ => putP x (Q.copy tmp (.member x) (Q.copy result tmp p)) >>= f)
      (Indirect.constructFrom tr a k >>= fun p => Indirect.reset tr T x >>= fun _ => setP x (some p) >>= f') := by
  refine (hom_constructFrom hQ a hk).bind ?_
  intro p q hp
  refine (hom_reset hQ hT x).bind ?_
  intro _ _ _
  exact (hom_putP hQ (by rw [target_copy hQ, target_copy hQ, hp])).bind hf

theorem Hom.weaken {r r' : α → β → Prop} {m : M (FSt L A R B P) α} {m' : M (St L A R B) β} (h : Hom Q r m m') (hr : ∀ a b, r a b → r' a b) :
    Hom Q r' m m' := by
  intro s
  have := h s
  revert this
  cases m s <;> cases m' (forget Q s) <;> simp only [RSame, imp_self]
  exact fun ⟨h1, h2⟩ => ⟨hr _ _ h1, h2⟩

include hQ in
theorem hom_assignCopy (hT : ApartT T) (x y : L) : Hom Q Eq (assignCopy Q tr T x y) (Indirect.assignCopy tr T x y) := by
  unfold assignCopy Indirect.assignCopy
  refine Hom.ite (Hom.pure rfl) ?_
  refine (hom_valueless y).bind ?_
  rintro b _ rfl
  have last := fun (_ _ : Unit) (_ : True) => hom_update (Q := Q) (A := A) (R := R) (B := B) tr.pocca x y
  cases b
  · simp only [Bool.false_eq_true, if_false]
    refine (Hom.getF x).bind ?_
    rintro t _ rfl
    refine (Hom.getF y).bind ?_
    rintro o _ rfl
    refine Hom.ite ?_ ?_
    · refine (hom_deref x).bind ?_
      rintro d _ rfl
      refine (hom_deref y).bind ?_
      rintro q _ rfl
      exact ((Hom.outside (hT.copyAssign d q)).weaken (fun _ _ _ => trivial)).bind last
    · refine (hom_deref y).bind ?_
      rintro q _ rfl
      exact hom_replace hQ hT x _ (fun a d => hT.copyCtor a d q) last
  · simp only [if_true]
    exact Hom.bind (hom_reset hQ hT x) last

include hQ in
theorem hom_assignMove (hT : ApartT T) (x y : L) : Hom Q Eq (assignMove Q tr T x y) (Indirect.assignMove tr T x y) := by
  unfold assignMove Indirect.assignMove
  refine Hom.noexceptIf (Hom.ite (Hom.pure rfl) ?_)
  refine (hom_valueless y).bind ?_
  rintro b _ rfl
  have last := fun (_ _ : Unit) (_ : True) => hom_update (Q := Q) (A := A) (R := R) (B := B) tr.pocma x y
  cases b
  · simp only [Bool.false_eq_true, if_false]
    refine (Hom.getF x).bind ?_
    rintro t _ rfl
    refine (Hom.getF y).bind ?_
    rintro o _ rfl
    refine Hom.ite ?_ ?_
    · refine (hom_putP hQ (by simp only [swapP, target_copy hQ, plainH])).bind ?_
      intro _ _ _
      refine (hom_putP hQ (by simp only [swapP, target_copy hQ, plainH])).bind ?_
      intro _ _ _
      exact (hom_reset hQ hT y).bind last
    · refine (hom_deref y).bind ?_
      rintro q _ rfl
      exact hom_replace hQ hT x _ (fun a d => hT.moveCtor a d q) last
  · simp only [if_true]
    exact Hom.bind (hom_reset hQ hT x) last

include hQ in
theorem hom_assignFrom (hT : ApartT T) (x : L) (u : Fwd X) : Hom Q Eq (assignFrom Q tr T x u) (Indirect.assignFrom tr T x u) := by
  unfold assignFrom Indirect.assignFrom
  refine (hom_valueless x).bind ?_
  rintro b _ rfl
  refine Hom.ite ?_ ?_
  · refine (Hom.getF x).bind ?_
    rintro t _ rfl
    refine (hom_constructFrom hQ t.alloc (fun a d => hT.makeFwd a d u)).bind ?_
    intro p q hp
    exact (hom_putP hQ (by rw [target_copy hQ, hp])).bind (fun _ _ _ => Hom.pure rfl)
  · refine (hom_deref x).bind ?_
    rintro d _ rfl
    exact (Hom.outside (hT.assignFwd d u)).bind (fun _ _ _ => Hom.pure rfl)

include hQ in
theorem hom_swap (x y : L) : Hom (B := B) Q (fun _ _ => True) (swap Q tr x y) (Indirect.swap tr x y) := by
  unfold swap Indirect.swap
  refine Hom.noexceptIf ((Hom.getF x).bind ?_)
  rintro t _ rfl
  refine (Hom.getF y).bind ?_
  rintro o _ rfl
  have both : Hom (A := A) (R := R) (B := B) Q (fun _ _ => True)
      (do putP x (swapP Q (.member x) (.member y) t.p o.p).1; putP y (swapP Q (.member x) (.member y) t.p o.p).2)
      (do setP x (plainH Q y o).p; setP y (plainH Q x t).p) := by
    refine (hom_putP hQ (by simp only [swapP, target_copy hQ, plainH])).bind ?_
    intro _ _ _
    exact hom_putP hQ (by simp only [swapP, target_copy hQ, plainH])
  refine Hom.ite ?_ (Hom.ite both (Hom.undef _))
  refine (Hom.putAlloc x o.alloc).bind ?_
  intro _ _ _
  refine (Hom.putAlloc y t.alloc).bind ?_
  intro _ _ _
  exact both

end

/-! ### Calls -/

section
variable {L A R V X P : Type} [DecidableEq L] [DecidableEq R] {Q : Pointers L P} {tr : ATraits A R} {T : TOps (St L A R (Obj V)) A X} (hQ : Q.Sound)

theorem hom_evalSrc (u : Src L X) : Hom (A := A) (R := R) (B := Obj V) Q Eq (evalSrc Q u) (Indirect.evalSrc u) := by
  cases u <;> simp only [evalSrc, Indirect.evalSrc]
  · exact Hom.pure rfl
  · refine (hom_deref _).bind ?_
    rintro q _ rfl
    exact Hom.pure rfl
  · refine (hom_deref _).bind ?_
    rintro q _ rfl
    exact Hom.pure rfl

include hQ in
theorem hom_construct (hT : ApartT T) (x : L) (a : Option A) (c : Ctor L X) :
    Hom Q (fun h h' => plainH Q x h = h') (construct Q tr T x a c) (Indirect.construct tr T a c) := by
  cases a <;> cases c <;> simp only [construct, Indirect.construct, Option.getD]
  all_goals first
    | exact hom_ctor hQ x _ (fun a d => hT.make a d _)
    | (refine (hom_evalSrc _).bind ?_
       rintro u _ rfl
       exact hom_ctor hQ x _ (fun a d => hT.makeFwd a d u))

theorem Apart.readBody (p : Addr) : Apart (readBody p : M (St L A R (Obj V)) (Obj V)) := by
  intro hs s h
  unfold Verif.readBody
  split
  · trivial
  · exact h

theorem Apart.writeBody (p : Addr) (b : Obj V) : Apart (writeBody p b : M (St L A R (Obj V)) Unit) := by
  intro hs s h
  unfold Verif.writeBody
  split
  · trivial
  · exact h

theorem Apart.emit (e : Ev R) : Apart (emit e : M (St L A R (Obj V)) Unit) := fun _ _ h => h

theorem Apart.choose : Apart (choose : M (St L A R (Obj V)) Nat) := fun _ _ h => h

theorem Apart.readObj (p : Addr) : Apart (readObj p : M (St L A R (Obj V)) V) := by
  intro hs
  refine keeps_bind (Apart.readBody p hs) ?_
  intro b
  cases b
  · exact keeps_undef _
  · exact keeps_pure _

theorem Apart.writeObj (p : Addr) (v : V) : Apart (writeObj p v : M (St L A R (Obj V)) Unit) := by
  intro hs
  exact keeps_bind (Apart.readObj p hs) fun _ => Apart.writeBody p _ hs

theorem Apart.beginObj (p : Addr) (v : V) (how : How) : Apart (beginObj p v how : M (St L A R (Obj V)) Unit) := by
  intro hs s h
  unfold Verif.beginObj
  split
  · exact h
  · trivial

theorem Apart.endObj (p : Addr) : Apart (endObj p : M (St L A R (Obj V)) Unit) := by
  intro hs
  exact keeps_bind (Apart.readObj p hs) fun _ => keeps_bind (Apart.writeBody p _ hs) fun _ => Apart.emit _ hs

theorem Apart.finish (p : Addr) (how : How) (r : Except Exn V) : Apart (finish p how r : M (St L A R (Obj V)) Unit) := by
  intro hs
  cases r
  · exact keeps_throwE _
  · exact Apart.beginObj _ _ _ hs

theorem Apart.rethrow (e : Option Exn) : Apart (rethrow e : M (St L A R (Obj V)) Unit) := by
  intro hs
  cases e
  · exact keeps_pure _
  · exact keeps_throwE _

theorem apart_plain (T : TSpec V X) : ApartT (plain T : TOps (St L A R (Obj V)) A X) := by
  constructor <;> intros <;> intro hs <;> simp only [plain]
  all_goals repeat' first
    | exact Apart.readObj _ hs | exact Apart.choose hs | exact Apart.finish _ _ _ hs | exact Apart.writeObj _ _ hs | exact Apart.emit _ hs
    | exact Apart.rethrow _ hs | exact Apart.endObj _ hs | exact keeps_pure _
    | (refine keeps_bind ?_ ?_) | (refine keeps_ite ?_ ?_) | intro _

theorem hom_out {α β : Type} {r : α → β → Prop} {m : M (FSt L A R (Obj V) P) α} {m' : M (St L A R (Obj V)) β} (h : Hom Q r m m')
    {f : α → Out L A V} {f' : β → Out L A V} (hf : ∀ a b, r a b → f a = f' b) :
    Hom Q Eq (do let a ← m; pure (f a)) (do let b ← m'; pure (f' b)) :=
  h.bind fun a b hr => Hom.pure (hf a b hr)

theorem hom_new {x : L} {m : M (FSt L A R (Obj V) P) (FHandle A P)} {m' : M (St L A R (Obj V)) (Handle A)}
    (h : Hom Q (fun h h' => plainH Q x h = h') m m') :
    Hom Q Eq (do let h ← m; putNew x h; pure (Out.unit : Out L A V)) (do let h ← m'; emplace x h; pure (Out.unit : Out L A V)) := by
  refine h.bind ?_
  rintro a _ rfl
  exact hom_out (Hom.putNew x a) fun _ _ _ => rfl

include hQ in
theorem hom_step (hT : ApartT T) (o : Op L A V X) : Hom Q Eq (step Q tr T o) (Indirect.step tr T o) := by
  cases o <;> simp only [step, Indirect.step]
  case make x a c => exact hom_new (hom_construct hQ hT x a c)
  case copy x y => exact hom_new (hom_ctorCopy hQ hT x y)
  case copyA x a y => exact hom_new (hom_ctorCopyA hQ hT x a y)
  case move x y => exact hom_new (hom_ctorMove hQ hT x y)
  case moveA x a y => exact hom_new (hom_ctorMoveA hQ hT x a y)
  case destroy x => exact hom_out (hom_dtor hQ hT x) fun _ _ _ => rfl
  case assignCopy x y => exact hom_out (hom_assignCopy hQ hT x y) fun _ _ h => by rw [h]
  case assignMove x y => exact hom_out (hom_assignMove hQ hT x y) fun _ _ h => by rw [h]
  case assignFrom x u =>
    refine (hom_evalSrc u).bind ?_
    rintro u _ rfl
    exact hom_out (hom_assignFrom hQ hT x u) fun _ _ h => by rw [h]
  case deref x =>
    refine (hom_deref x).bind ?_
    rintro p _ rfl
    exact hom_out (Hom.outside (Apart.readObj p)) fun _ _ h => by rw [h]
  case arrow x =>
    refine (hom_arrow hQ x).bind ?_
    intro p q hp
    refine hom_address hp ?_
    exact hom_out (Hom.outside (Apart.readObj q)) fun _ _ h => by rw [h]
  case modify x f =>
    refine (hom_deref x).bind ?_
    rintro p _ rfl
    refine (Hom.outside (Apart.readObj p)).bind ?_
    rintro v _ rfl
    exact hom_out (Hom.outside (Apart.writeObj p _)) fun _ _ _ => rfl
  case valueless x => exact hom_out (hom_valueless x) fun _ _ h => by rw [h]
  case getAllocator x => exact hom_out (hom_getAllocator x) fun _ _ h => by rw [h]
  case swap x y => exact hom_out (hom_swap hQ x y) fun _ _ _ => rfl
  case friendSwap x y => exact hom_out (Hom.noexceptIf (hom_swap hQ x y)) fun _ _ _ => rfl

end
end Verif.Fancy
