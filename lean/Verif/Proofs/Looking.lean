import Verif.Spec.Looking
import Verif.Proofs.IndirectEval

/-!
# Computations that agree as long as the owners are known
-/

set_option autoImplicit false
set_option linter.unusedSectionVars false
set_option linter.unusedSimpArgs false

namespace Verif.Looking
open Verif Verif.Spec.Looking

section
variable {L A R B α β : Type} [DecidableEq L] [DecidableEq R] [Body B]

/-- The computations do the same from states with owners `h`. -/
def Agree (h : Owners L A) (m m' : M (St L A R B) α) : Prop := ∀ s, s.hs = h → m s = m' s

/-- From a state with owners `h` the computation returns in one with owners `h'`. -/
def Keep (h h' : Owners L A) (m : M (St L A R B) α) : Prop := ∀ s a s', s.hs = h → m s = .ok a s' → s'.hs = h'

theorem Agree.rfl {h : Owners L A} {m : M (St L A R B) α} : Agree h m m := fun _ _ => Eq.refl _

theorem Agree.bind {h h' : Owners L A} {m m' : M (St L A R B) α} {f f' : α → M (St L A R B) β} (h1 : Agree h m m') (h2 : Keep h h' m')
    (h3 : ∀ a, Agree h' (f a) (f' a)) : Agree h (m >>= f) (m' >>= f') := by
  intro s hs
  show M.andThen m f s = M.andThen m' f' s
  unfold M.andThen
  rw [h1 s hs]
  cases e : m' s with
  | ok a s' => exact h3 a s' (h2 s a s' hs e)
  | _ => exact Eq.refl _

/-- What follows is the same anyway. -/
theorem Agree.head {h : Owners L A} {m m' : M (St L A R B) α} {f : α → M (St L A R B) β} (h1 : Agree h m m') : Agree h (m >>= f) (m' >>= f) := by
  intro s hs
  show M.andThen m f s = M.andThen m' f s
  unfold M.andThen
  rw [h1 s hs]

theorem Agree.noexceptIf {h : Owners L A} {m m' : M (St L A R B) α} (b : Bool) (h1 : Agree h m m') : Agree h (M.noexceptIf b m) (M.noexceptIf b m') := by
  intro s hs
  unfold M.noexceptIf
  rw [h1 s hs]

theorem Agree.onThrow {h : Owners L A} {m m' : M (St L A R B) α} {c : M (St L A R B) Unit} (h1 : Agree h m m') : Agree h (M.onThrow m c) (M.onThrow m' c) := by
  intro s hs
  unfold M.onThrow
  rw [h1 s hs]

/-- Reading a known owner. -/
theorem Agree.getH {h : Owners L A} {l : L} {f f' : Handle A → M (St L A R B) β} (h1 : ∀ t, h l = some t → Agree h (f t) (f' t)) :
    Agree h (Verif.getH l >>= f) (Verif.getH l >>= f') := by
  intro s hs
  show M.andThen _ f s = M.andThen _ f' s
  unfold M.andThen Verif.getH
  rw [hs]
  cases e : h l with
  | none => exact Eq.refl _
  | some t => exact h1 t e s hs

theorem Keep.bind {h h' h'' : Owners L A} {m : M (St L A R B) α} {f : α → M (St L A R B) β} (h1 : Keep h h' m) (h2 : ∀ a, Keep h' h'' (f a)) : Keep h h'' (m >>= f) := by
  intro s b s' hs e
  have e : M.andThen m f s = .ok b s' := e
  unfold M.andThen at e
  cases em : m s with
  | ok a t => rw [em] at e; exact h2 a t b s' (h1 s a t hs em) e
  | threw _ _ => rw [em] at e; cases e
  | terminated => rw [em] at e; cases e
  | ub _ => rw [em] at e; cases e
  | diverged => rw [em] at e; cases e

theorem Keep.pure {h : Owners L A} {a : α} : Keep h h (Pure.pure a : M (St L A R B) α) := by
  intro s b s' hs e
  cases e
  exact hs

theorem Keep.undef {h h' : Owners L A} {u : UB} : Keep h h' (M.undef u : M (St L A R B) α) := fun _ _ _ _ e => nomatch e

theorem Keep.ofQuiet {h : Owners L A} {m : M (St L A R B) α} (q : Quiet m) : Keep h h m := fun s a s' hs e => (q s a s' e).trans hs

theorem Keep.onThrow {h h' : Owners L A} {m : M (St L A R B) α} {c : M (St L A R B) Unit} (h1 : Keep h h' m) : Keep h h' (M.onThrow m c) := by
  intro s a s' hs e
  unfold M.onThrow at e
  cases em : m s with
  | ok b t => rw [em] at e; cases e; exact h1 s a s' hs em
  | threw _ t =>
    rw [em] at e
    simp only at e
    cases ec : c t <;> rw [ec] at e <;> cases e
  | terminated => rw [em] at e; cases e
  | ub _ => rw [em] at e; cases e
  | diverged => rw [em] at e; cases e

theorem Keep.getH {h : Owners L A} {l : L} : Keep h h (Verif.getH l : M (St L A R B) (Handle A)) := by
  intro s a s' hs e
  unfold Verif.getH at e
  split at e <;> cases e
  exact hs

theorem Keep.setP {h : Owners L A} {l : L} {t : Handle A} {p : Option Addr} (hl : h l = some t) :
    Keep h (upd h l (some { t with p := p })) (Verif.setP l p : M (St L A R B) Unit) := by
  intro s a s' hs e
  unfold Verif.setP at e
  rw [hs, hl] at e
  cases e
  rfl

theorem Keep.allocate {h : Owners L A} {r : R} : Keep h h (Verif.allocate r : M (St L A R B) Addr) := by
  intro s a s' hs e
  unfold Verif.allocate at e
  split at e
  · cases e
  · simp only at e
    split at e <;> cases e
    exact hs

theorem Keep.readBody {h : Owners L A} {p : Addr} : Keep h h (Verif.readBody p : M (St L A R B) B) := by
  intro s a s' hs e
  unfold Verif.readBody at e
  split at e <;> cases e
  exact hs

theorem Keep.writeBody {h : Owners L A} {p : Addr} {b : B} : Keep h h (Verif.writeBody p b : M (St L A R B) Unit) := by
  intro s a s' hs e
  unfold Verif.writeBody at e
  split at e <;> cases e
  exact hs

theorem Agree.ite {h : Owners L A} {c : Prop} [Decidable c] {m m' n n' : M (St L A R B) α} (h1 : c → Agree h m m') (h2 : ¬c → Agree h n n') :
    Agree h (if c then m else n) (if c then m' else n') := by
  intro s hs
  by_cases hc : c
  · rw [if_pos hc, if_pos hc]; exact h1 hc s hs
  · rw [if_neg hc, if_neg hc]; exact h2 hc s hs

end

/-! ## indirect.h -/

/-- Like `fixed`, with any destructor. -/
def fixedD {L A R B X : Type} (assignable copyAssignable : Bool) (U : Owners L A → TOps (St L A R B) A X) (before : Owners L A) (D : A → Addr → M (St L A R B) Unit) :
    TOps (St L A R B) A X := { fixed assignable copyAssignable U before before with dtor := D }

/-- Like `fixedP`, with any destructor. -/
def fixedDP {L A R Ty V X : Type} (base : Ty) (U : Owners L A → POps (St L A R (PBody Ty V)) A Ty X) (before : Owners L A) (D : Ty → A → Addr → M (St L A R (PBody Ty V)) Unit) :
    POps (St L A R (PBody Ty V)) A Ty X := { fixedP base U before before with dtor := D }


section
variable {L A R B V X : Type} [DecidableEq L] [DecidableEq R] [Body B]
variable {tr : ATraits A R} {b c : Bool} {U : Owners L A → TOps (St L A R B) A X} {h : Owners L A} {D : A → Addr → M (St L A R B) Unit}

theorem looking_makeFwd (a : A) (m : Addr) (u : Fwd X) : Agree h ((looking b c U).makeFwd a m u) ((fixedD b c U h D).makeFwd a m u) := by
  intro s hs
  cases u <;> simp only [TOps.makeFwd, looking, fixedD, fixed, hs]

theorem looking_assignFwd (m : Addr) (u : Fwd X) : Agree h ((looking b c U).assignFwd m u) ((fixedD b c U h D).assignFwd m u) := by
  intro s hs
  cases u <;> simp only [TOps.assignFwd, looking, fixedD, fixed, hs]

theorem fixed_makeFwd (q : QuietT (U h)) (a : A) (m : Addr) (u : Fwd X) : Keep h h ((fixedD b c U h D).makeFwd a m u) := by
  cases u
  · exact Keep.ofQuiet (q.make _ _ _)
  · exact Keep.ofQuiet (q.copyCtor _ _ _)
  · exact Keep.ofQuiet (q.moveCtor _ _ _)

theorem constructFrom_agree {a : A} {k k' : A → Addr → M (St L A R B) Unit} (h1 : ∀ a m, Agree h (k a m) (k' a m)) :
    Agree h (Indirect.constructFrom tr a k) (Indirect.constructFrom tr a k') := by
  unfold Indirect.constructFrom
  exact Agree.bind .rfl Keep.allocate fun m => Agree.head (Agree.onThrow (h1 a m))

theorem constructFrom_keep {a : A} {k : A → Addr → M (St L A R B) Unit} (h1 : ∀ a m, Keep h h (k a m)) : Keep h h (Indirect.constructFrom tr a k) := by
  unfold Indirect.constructFrom
  exact Keep.bind Keep.allocate fun m => Keep.bind (Keep.onThrow (h1 a m)) fun _ => Keep.pure

theorem reset_agree {F : TOps (St L A R B) A X} (hF : ∀ a p, Referred h p → F.dtor a p = (U h).dtor a p) (l : L) : Agree h (Indirect.reset tr (looking b c U) l) (Indirect.reset tr F l) := by
  unfold Indirect.reset
  refine Agree.noexceptIf _ (Agree.getH fun t ht => ?_)
  cases hp : t.p with
  | none => exact .rfl
  | some p =>
    refine Agree.head (Agree.head ?_)
    intro s hs
    rw [hF _ _ ⟨l, t, ht, hp⟩]
    simp only [looking, hs]

theorem deref_keep (l : L) : Keep h h (Indirect.deref l : M (St L A R B) Addr) := by
  unfold Indirect.deref
  refine Keep.bind Keep.getH fun t => ?_
  cases t.p with
  | none => exact Keep.undef
  | some p => exact Keep.pure

theorem valueless_keep (l : L) : Keep h h (Indirect.valueless l : M (St L A R B) Bool) := Keep.bind Keep.getH fun _ => Keep.pure

theorem Agree.valueless {β : Type} {y : L} {f f' : Bool → M (St L A R B) β} (h1 : ∀ o, h y = some o → Agree h (f (o.p == none)) (f' (o.p == none))) :
    Agree h (Indirect.valueless y >>= f) (Indirect.valueless y >>= f') := by
  intro s hs
  show M.andThen _ f s = M.andThen _ f' s
  cases e : h y with
  | none =>
    have : (Indirect.valueless y : M (St L A R B) Bool) s = .ub .deadHandle := by
      show M.andThen _ _ s = _
      simp only [M.andThen, Verif.getH, hs, e]
    simp only [M.andThen, this]
  | some t =>
    have : (Indirect.valueless y : M (St L A R B) Bool) s = .ok (t.p == none) s := by
      show M.andThen _ _ s = _
      simp only [M.andThen, Verif.getH, hs, e]
      rfl
    simp only [M.andThen, this]
    exact h1 t e s hs

theorem ctorCopyA_agree (a : A) (y : L) : Agree h (Indirect.ctorCopyA tr (looking b c U) a y) (Indirect.ctorCopyA tr (fixedD b c U h D) a y) := by
  unfold Indirect.ctorCopyA
  refine Agree.bind .rfl (valueless_keep y) fun v => Agree.ite (fun _ => .rfl) fun _ => ?_
  refine Agree.bind .rfl (deref_keep y) fun q => Agree.head (constructFrom_agree ?_)
  intro a m s hs
  simp only [looking, fixedD, fixed, hs]

theorem ctorMoveA_agree (a : A) (y : L) : Agree h (Indirect.ctorMoveA tr (looking b c U) a y) (Indirect.ctorMoveA tr (fixedD b c U h D) a y) := by
  unfold Indirect.ctorMoveA
  refine Agree.noexceptIf _ (Agree.getH fun o _ => Agree.ite (fun _ => .rfl) fun _ => Agree.ite (fun _ => .rfl) fun _ => ?_)
  refine Agree.bind .rfl (valueless_keep y) fun v => Agree.ite (fun _ => ?_) fun _ => .rfl
  refine Agree.bind .rfl (deref_keep y) fun q => Agree.head (constructFrom_agree ?_)
  intro a m s hs
  simp only [looking, fixedD, fixed, hs]

theorem assignCopy_agree (q : QuietT (U h)) (x y : L) (hD : ∀ a p, Referred h p → D a p = (U h).dtor a p) : Agree h (Indirect.assignCopy tr (looking b c U) x y) (Indirect.assignCopy tr (fixedD b c U h D) x y) := by
  unfold Indirect.assignCopy
  refine Agree.ite (fun _ => .rfl) fun _ => ?_
  simp only []
  refine Agree.bind .rfl (valueless_keep y) fun v => Agree.ite (fun _ => Agree.head (reset_agree hD x)) fun _ => ?_
  refine Agree.getH fun t _ => Agree.getH fun o _ => Agree.ite (fun _ => ?_) fun _ => ?_
  · refine Agree.bind .rfl (deref_keep x) fun d => Agree.bind .rfl (deref_keep y) fun q => Agree.head ?_
    intro s hs
    simp only [looking, fixedD, fixed, hs]
  · refine Agree.bind .rfl (deref_keep y) fun p => Agree.bind (constructFrom_agree ?_) (constructFrom_keep fun _ _ => Keep.ofQuiet (q.copyCtor _ _ _)) fun tmp => Agree.head (reset_agree hD x)
    intro a m s hs
    simp only [looking, fixedD, fixed, hs]

theorem exchanged_upd {x y : L} {t o : Handle A} (hx : h x = some t) (hy : h y = some o) :
    exchanged h x y = upd (upd h x (some { t with p := o.p })) y (some { o with p := t.p }) := by
  funext l
  simp only [exchanged, hx, hy, upd]

theorem assignMove_agree (q : QuietT (U h)) (x y : L) (hD : ∀ a p, Referred (dyingMove tr h x y) p → D a p = (U (dyingMove tr h x y)).dtor a p) :
    Agree h (Indirect.assignMove tr (looking b c U) x y) (Indirect.assignMove tr (fixedD b c U h D) x y) := by
  unfold Indirect.assignMove
  refine Agree.noexceptIf _ (Agree.ite (fun _ => .rfl) fun hne => ?_)
  simp only []
  refine Agree.valueless fun o ho => Agree.ite (fun hv => ?_) fun hv => ?_
  · have : dyingMove tr h x y = h := by
      have : o.p = none := by simpa using hv
      unfold dyingMove
      rw [ho]
      cases h x <;> simp [this]
    rw [this] at hD
    exact Agree.head (reset_agree hD x)
  have hp : o.p ≠ none := by simpa using hv
  refine Agree.getH fun t ht => Agree.getH fun o' ho' => ?_
  cases ho.symm.trans ho'
  refine Agree.ite (fun he => ?_) fun he => ?_
  · have : dyingMove tr h x y = upd (upd h x (some { t with p := o.p })) y (some { o with p := t.p }) := by
      unfold dyingMove
      rw [ho, ht]
      simp only
      rw [if_pos ⟨hp, he⟩, exchanged_upd ht ho]
    rw [this] at hD
    refine Agree.bind .rfl (Keep.setP ht) fun _ => Agree.bind .rfl (Keep.setP (t := o) ?_) fun _ => Agree.head (reset_agree hD y)
    rw [upd, if_neg (Ne.symm hne)]
    exact ho
  · have : dyingMove tr h x y = h := by
      unfold dyingMove
      rw [ho, ht]
      simp only
      rw [if_neg (fun hc => he hc.2)]
    rw [this] at hD
    refine Agree.bind .rfl (deref_keep y) fun p => Agree.bind (constructFrom_agree ?_) (constructFrom_keep fun _ _ => Keep.ofQuiet (q.moveCtor _ _ _)) fun tmp => Agree.head (reset_agree hD x)
    intro a m s hs
    simp only [looking, fixedD, fixed, hs]

theorem assignFrom_agree (x : L) (u : Fwd X) : Agree h (Indirect.assignFrom tr (looking b c U) x u) (Indirect.assignFrom tr (fixedD b c U h D) x u) := by
  unfold Indirect.assignFrom
  simp only []
  refine Agree.bind .rfl (valueless_keep x) fun v => Agree.ite (fun _ => ?_) fun _ => ?_
  · exact Agree.getH fun t _ => Agree.head (constructFrom_agree fun a m => looking_makeFwd a m u)
  · exact Agree.bind .rfl (deref_keep x) fun d => Agree.head (looking_assignFwd d u)

end

section
variable {L A R V X : Type} [DecidableEq L] [DecidableEq R]
variable {tr : ATraits A R} {b c : Bool} {U : Owners L A → TOps (St L A R (Obj V)) A X} {h : Owners L A} {D : A → Addr → M (St L A R (Obj V)) Unit}

theorem evalSrc_keep (u : Src L X) : Keep h h (Indirect.evalSrc u : M (St L A R (Obj V)) (Fwd X)) := by
  cases u
  · exact Keep.pure
  · exact Keep.bind (deref_keep _) fun _ => Keep.pure
  · exact Keep.bind (deref_keep _) fun _ => Keep.pure

theorem construct_agree (a : Option A) (k : Ctor L X) : Agree h (Indirect.construct tr (looking b c U) a k) (Indirect.construct tr (fixedD b c U h D) a k) := by
  have hm (a : A) (xs : TArgs X) : Agree h (Indirect.constructFrom tr a (fun a m => (looking b c U).make a m xs)) (Indirect.constructFrom tr a (fun a m => (fixedD b c U h D).make a m xs)) := by
    refine constructFrom_agree ?_
    intro a m s hs
    simp only [looking, fixedD, fixed, hs]
  have hf (a : A) (u : Fwd X) := constructFrom_agree (tr := tr) (a := a) (fun a m => looking_makeFwd (b := b) (c := c) (U := U) (h := h) (D := D) a m u)
  cases a <;> cases k <;> unfold Indirect.construct
  case none.default => exact Agree.head (hm _ _)
  case none.from u => exact Agree.bind .rfl (evalSrc_keep u) fun u => Agree.head (hf _ u)
  case none.inPlace us => exact Agree.head (hm _ _)
  case none.inPlaceOne u => exact Agree.bind .rfl (evalSrc_keep u) fun u => Agree.head (hf _ u)
  case none.ilist => exact Agree.head (hm _ _)
  case some.default => exact Agree.head (hm _ _)
  case some.from u => exact Agree.bind .rfl (evalSrc_keep u) fun u => Agree.head (hf _ u)
  case some.inPlace us => exact Agree.head (hm _ _)
  case some.inPlaceOne u => exact Agree.bind .rfl (evalSrc_keep u) fun u => Agree.head (hf _ u)
  case some.ilist => exact Agree.head (hm _ _)

theorem step_agree (q : QuietT (U h)) (o : Op L A V X) (hD : ∀ a p, Referred (dying tr h o) p → D a p = (U (dying tr h o)).dtor a p) : Agree h (Indirect.step tr (looking b c U) o) (Indirect.step tr (fixedD b c U h D) o) := by
  cases o <;> unfold Indirect.step
  case make x a k => exact Agree.head (construct_agree a k)
  case copy x y =>
    refine Agree.head ?_
    unfold Indirect.ctorCopy
    exact Agree.getH fun o _ => ctorCopyA_agree _ y
  case copyA x a y => exact Agree.head (ctorCopyA_agree a y)
  case move x y =>
    refine Agree.head ?_
    unfold Indirect.ctorMove
    exact Agree.noexceptIf _ (Agree.getH fun o _ => ctorMoveA_agree _ y)
  case moveA x a y => exact Agree.head (ctorMoveA_agree a y)
  case destroy x =>
    refine Agree.head ?_
    unfold Indirect.dtor
    exact Agree.noexceptIf _ (Agree.head (reset_agree hD x))
  case assignCopy x y => exact Agree.head (assignCopy_agree q x y hD)
  case assignMove x y => exact Agree.head (assignMove_agree q x y hD)
  case assignFrom x u => exact Agree.bind .rfl (evalSrc_keep u) fun u => Agree.head (assignFrom_agree x u)
  all_goals exact .rfl

theorem assignFrom14 (T : TOps (St L A R (Obj V)) A X) (x : L) (u : Fwd X) :
    Indirect14.assignFrom tr T x u = Indirect.assignFrom tr { T with assignable := T.copyAssignable } x u := by
  funext s
  show M.andThen (Indirect.valueless x) _ s = M.andThen (Indirect.valueless x) _ s
  unfold M.andThen
  cases Indirect.valueless x s with
  | ok v s' =>
    cases v
    · cases u <;> rfl
    · show M.andThen (M.andThen (getH x) _) _ s' = M.andThen (getH x) _ s'
      simp only [M.andThen, getH]
      cases s'.hs x
      · rfl
      · cases u <;> rfl
  | _ => rfl

/-- The functions of indirect_cxx14.h do what those of indirect.h do, but ask whether `T` is copy assignable. -/
theorem step14 (T : TOps (St L A R (Obj V)) A X) (o : Op L A V X) : Indirect14.step tr T o = Indirect.step tr { T with assignable := T.copyAssignable } o := by
  cases o
  case make x a k => cases a <;> cases k <;> first | rfl | (rename_i u; cases u <;> rfl)
  case assignFrom x u =>
    unfold Indirect14.step Indirect.step
    simp only [assignFrom14]
    cases u <;> rfl
  all_goals rfl

end

/-! ## polymorphic.h -/

section
variable {L A R Ty V X : Type} [DecidableEq L] [DecidableEq R] [DecidableEq Ty]
variable {tr : ATraits A R} {base : Ty} {U : Owners L A → POps (St L A R (PBody Ty V)) A Ty X} {h : Owners L A} {D : Ty → A → Addr → M (St L A R (PBody Ty V)) Unit}

theorem lookingP_makeFwd (ty : Ty) (a : A) (m : Addr) (u : Fwd X) : Agree h ((lookingP base U).makeFwd ty a m u) ((fixedDP base U h D).makeFwd ty a m u) := by
  intro s hs
  cases u <;> simp only [POps.makeFwd, lookingP, fixedDP, fixedP, hs]

theorem readCB_keep (p : Addr) : Keep h h (readCB p : M (St L A R (PBody Ty V)) (CB Ty V)) := by
  unfold readCB
  refine Keep.bind Keep.readBody fun b => ?_
  cases b with
  | none => exact Keep.undef
  | some c => exact Keep.pure

theorem beginCB_keep (ty : Ty) (p : Addr) : Keep h h (beginCB ty p : M (St L A R (PBody Ty V)) Unit) := by
  intro s a s' hs e
  unfold beginCB at e
  split at e <;> cases e
  exact hs

theorem setCBp_keep (p r : Addr) : Keep h h (setCBp p r : M (St L A R (PBody Ty V)) Unit) := by
  unfold setCBp
  exact Keep.bind (readCB_keep p) fun _ => Keep.writeBody

theorem cbCtor_agree {ty : Ty} {a : A} {m : Addr} {k k' : A → Addr → M (St L A R (PBody Ty V)) Unit} (h1 : ∀ a m, Agree h (k a m) (k' a m)) :
    Agree h (Polymorphic.cbCtor ty a m k) (Polymorphic.cbCtor ty a m k') := by
  unfold Polymorphic.cbCtor
  exact Agree.bind .rfl (beginCB_keep ty m) fun _ => Agree.head (Agree.onThrow (h1 a m))

theorem cbCtor_keep {ty : Ty} {a : A} {m : Addr} {k : A → Addr → M (St L A R (PBody Ty V)) Unit} (h1 : ∀ a m, Keep h h (k a m)) : Keep h h (Polymorphic.cbCtor ty a m k) := by
  unfold Polymorphic.cbCtor
  exact Keep.bind (beginCB_keep ty m) fun _ => Keep.bind (Keep.onThrow (h1 a m)) fun _ => setCBp_keep m m

theorem create_agree {P P' : POps (St L A R (PBody Ty V)) A Ty X} (hP : P.block = fun _ _ m => m) (hP' : P'.block = fun _ _ m => m) {ty : Ty} {a : A}
    {k k' : A → Addr → M (St L A R (PBody Ty V)) Unit} (h1 : ∀ a m, Agree h (k a m) (k' a m)) :
    Agree h (Polymorphic.createControlBlock tr P ty a k) (Polymorphic.createControlBlock tr P' ty a k') := by
  unfold Polymorphic.createControlBlock
  rw [hP, hP']
  exact Agree.bind .rfl Keep.allocate fun m => Agree.head (Agree.onThrow (cbCtor_agree h1))

theorem create_keep {P : POps (St L A R (PBody Ty V)) A Ty X} (hP : P.block = fun _ _ m => m) {ty : Ty} {a : A} {k : A → Addr → M (St L A R (PBody Ty V)) Unit}
    (h1 : ∀ a m, Keep h h (k a m)) : Keep h h (Polymorphic.createControlBlock tr P ty a k) := by
  unfold Polymorphic.createControlBlock
  rw [hP]
  exact Keep.bind Keep.allocate fun m => Keep.bind (Keep.onThrow (cbCtor_keep h1)) fun _ => Keep.pure

theorem vclone_agree (p : Addr) (a : A) : Agree h (Polymorphic.vclone tr (lookingP base U) p a) (Polymorphic.vclone tr (fixedDP base U h D) p a) := by
  unfold Polymorphic.vclone
  refine Agree.bind .rfl (readCB_keep p) fun c => create_agree (ty := c.ty) (k := fun a m => (lookingP base U).copyCtor c.ty a m p)
    (k' := fun a m => (fixedDP base U h D).copyCtor c.ty a m p) rfl rfl ?_
  intro a m s hs
  simp only [lookingP, fixedDP, fixedP, hs]

theorem vclone_keep (q : QuietP (U h)) (p : Addr) (a : A) : Keep h h (Polymorphic.vclone tr (fixedDP base U h D) p a) := by
  unfold Polymorphic.vclone
  exact Keep.bind (readCB_keep p) fun c => create_keep (ty := c.ty) (k := fun a m => (fixedDP base U h D).copyCtor c.ty a m p) rfl
    fun _ _ => Keep.ofQuiet (q.copyCtor _ _ _ _)

theorem vmove_agree (p : Addr) (a : A) : Agree h (Polymorphic.vmove tr (lookingP base U) p a) (Polymorphic.vmove tr (fixedDP base U h D) p a) := by
  unfold Polymorphic.vmove
  refine Agree.bind .rfl (readCB_keep p) fun c => create_agree (ty := c.ty) (k := fun a m => (lookingP base U).moveCtor c.ty a m p)
    (k' := fun a m => (fixedDP base U h D).moveCtor c.ty a m p) rfl rfl ?_
  intro a m s hs
  simp only [lookingP, fixedDP, fixedP, hs]

theorem vmove_keep (q : QuietP (U h)) (p : Addr) (a : A) : Keep h h (Polymorphic.vmove tr (fixedDP base U h D) p a) := by
  unfold Polymorphic.vmove
  exact Keep.bind (readCB_keep p) fun c => create_keep (ty := c.ty) (k := fun a m => (fixedDP base U h D).moveCtor c.ty a m p) rfl
    fun _ _ => Keep.ofQuiet (q.moveCtor _ _ _ _)

theorem resetP_agree {F : POps (St L A R (PBody Ty V)) A Ty X} (hF : ∀ ty a p, Referred h p → F.dtor ty a p = (U h).dtor ty a p) (l : L) : Agree h (Polymorphic.reset tr (lookingP base U) l) (Polymorphic.reset tr F l) := by
  unfold Polymorphic.reset
  refine Agree.noexceptIf _ (Agree.getH fun t ht => ?_)
  cases hp : t.p with
  | none => exact .rfl
  | some p =>
    refine Agree.head (Agree.bind .rfl (readCB_keep p) fun c => Agree.head ?_)
    intro s hs
    rw [hF _ _ _ ⟨l, t, ht, hp⟩]
    simp only [lookingP, hs]

theorem derefCB_keep (l : L) : Keep h h (Polymorphic.derefCB l : M (St L A R (PBody Ty V)) Addr) := deref_keep l

theorem ctorCopyAP_agree (a : A) (y : L) : Agree h (Polymorphic.ctorCopyA tr (lookingP base U) a y) (Polymorphic.ctorCopyA tr (fixedDP base U h D) a y) := by
  unfold Polymorphic.ctorCopyA
  exact Agree.bind .rfl (valueless_keep y) fun v => Agree.ite (fun _ => Agree.bind .rfl (derefCB_keep y) fun p => Agree.head (vclone_agree p a)) fun _ => .rfl

theorem ctorMoveAP_agree (a : A) (y : L) : Agree h (Polymorphic.ctorMoveA tr (lookingP base U) a y) (Polymorphic.ctorMoveA tr (fixedDP base U h D) a y) := by
  unfold Polymorphic.ctorMoveA
  refine Agree.noexceptIf _ (Agree.getH fun o _ => Agree.ite (fun _ => .rfl) fun _ => Agree.ite (fun _ => .rfl) fun _ => ?_)
  exact Agree.bind .rfl (valueless_keep y) fun v => Agree.ite (fun _ => Agree.bind .rfl (derefCB_keep y) fun p => Agree.head (vmove_agree p a)) fun _ => .rfl

theorem ctorMoveAP14_agree (a : A) (y : L) : Agree h (Polymorphic14.ctorMoveA tr (lookingP base U) a y) (Polymorphic14.ctorMoveA tr (fixedDP base U h D) a y) := by
  unfold Polymorphic14.ctorMoveA
  refine Agree.noexceptIf _ (Agree.getH fun o _ => Agree.ite (fun _ => .rfl) fun _ => Agree.ite (fun _ => .rfl) fun _ => ?_)
  exact Agree.bind .rfl (valueless_keep y) fun v => Agree.ite (fun _ => Agree.bind .rfl (derefCB_keep y) fun p => Agree.head (vmove_agree p a)) fun _ => .rfl

theorem assignCopyP_agree (q : QuietP (U h)) (x y : L) (hD : ∀ ty a p, Referred h p → D ty a p = (U h).dtor ty a p) : Agree h (Polymorphic.assignCopy tr (lookingP base U) x y) (Polymorphic.assignCopy tr (fixedDP base U h D) x y) := by
  unfold Polymorphic.assignCopy
  refine Agree.ite (fun _ => .rfl) fun _ => ?_
  simp only []
  refine Agree.bind .rfl (valueless_keep y) fun v => Agree.ite (fun _ => Agree.head (resetP_agree hD x)) fun _ => ?_
  refine Agree.bind .rfl (derefCB_keep y) fun p => Agree.getH fun t _ => Agree.getH fun o _ => ?_
  exact Agree.bind (vclone_agree p _) (vclone_keep q p _) fun tmp => Agree.head (resetP_agree hD x)

theorem assignMoveP_agree (q : QuietP (U h)) (x y : L) (hD : ∀ ty a p, Referred (dyingMove tr h x y) p → D ty a p = (U (dyingMove tr h x y)).dtor ty a p) :
    Agree h (Polymorphic.assignMove tr (lookingP base U) x y) (Polymorphic.assignMove tr (fixedDP base U h D) x y) := by
  unfold Polymorphic.assignMove
  refine Agree.noexceptIf _ (Agree.ite (fun _ => .rfl) fun hne => ?_)
  simp only []
  refine Agree.valueless (y := y) fun o ho => Agree.ite (fun hv => ?_) fun hv => ?_
  · have : dyingMove tr h x y = h := by
      have : o.p = none := by simpa using hv
      unfold dyingMove
      rw [ho]
      cases h x <;> simp [this]
    rw [this] at hD
    exact Agree.head (resetP_agree hD x)
  have hp : o.p ≠ none := by simpa using hv
  refine Agree.getH fun t ht => Agree.getH fun o' ho' => ?_
  cases ho.symm.trans ho'
  refine Agree.ite (fun he => ?_) fun he => ?_
  · have : dyingMove tr h x y = upd (upd h x (some { t with p := o.p })) y (some { o with p := t.p }) := by
      unfold dyingMove
      rw [ho, ht]
      simp only
      rw [if_pos ⟨hp, he⟩, exchanged_upd ht ho]
    rw [this] at hD
    refine Agree.bind .rfl (Keep.setP ht) fun _ => Agree.bind .rfl (Keep.setP (t := o) ?_) fun _ => Agree.head (resetP_agree hD y)
    rw [upd, if_neg (Ne.symm hne)]
    exact ho
  · have : dyingMove tr h x y = h := by
      unfold dyingMove
      rw [ho, ht]
      simp only
      rw [if_neg (fun hc => he hc.2)]
    rw [this] at hD
    exact Agree.bind .rfl (derefCB_keep y) fun p => Agree.bind (vmove_agree p _) (vmove_keep q p _) fun tmp => Agree.head (resetP_agree hD x)

theorem derefP_keep (l : L) : Keep h h (Polymorphic.deref l : M (St L A R (PBody Ty V)) Addr) := by
  unfold Polymorphic.deref
  refine Keep.bind (derefCB_keep l) fun p => Keep.bind (readCB_keep p) fun c => ?_
  cases c.p with
  | none => exact Keep.undef
  | some p => exact Keep.pure

theorem evalSrcP_keep (u : Src L X) : Keep h h (Polymorphic.evalSrc u : M (St L A R (PBody Ty V)) (Fwd X)) := by
  cases u
  · exact Keep.pure
  · exact Keep.bind (derefP_keep _) fun _ => Keep.pure
  · exact Keep.bind (derefP_keep _) fun _ => Keep.pure

theorem evalSrcP14_keep (u : Src L X) : Keep h h (Polymorphic14.evalSrc u : M (St L A R (PBody Ty V)) (Fwd X)) := by
  cases u
  · exact Keep.pure
  · exact Keep.bind (derefP_keep _) fun _ => Keep.pure
  · exact Keep.bind (derefP_keep _) fun _ => Keep.pure

theorem createMake (a : A) (ty : Ty) (xs : TArgs X) : Agree h (Polymorphic.createControlBlock tr (lookingP base U) ty a (fun a m => (lookingP base U).make ty a m xs))
    (Polymorphic.createControlBlock tr (fixedDP base U h D) ty a (fun a m => (fixedDP base U h D).make ty a m xs)) := by
  refine create_agree rfl rfl ?_
  intro a m s hs
  simp only [lookingP, fixedDP, fixedP, hs]

theorem createFwd (a : A) (ty : Ty) (u : Fwd X) : Agree h (Polymorphic.createControlBlock tr (lookingP base U) ty a (fun a m => (lookingP base U).makeFwd ty a m u))
    (Polymorphic.createControlBlock tr (fixedDP base U h D) ty a (fun a m => (fixedDP base U h D).makeFwd ty a m u)) :=
  create_agree rfl rfl fun a m => lookingP_makeFwd ty a m u

theorem constructP_agree (a : Option A) (k : PCtor L Ty X) : Agree h (Polymorphic.construct tr (lookingP base U) a k) (Polymorphic.construct tr (fixedDP base U h D) a k) := by
  cases a <;> cases k <;> unfold Polymorphic.construct
  case none.default => exact Agree.head (createMake _ _ _)
  case none.from ty u => exact Agree.bind .rfl (evalSrcP_keep u) fun u => Agree.head (createFwd _ ty u)
  case none.inPlace => exact Agree.head (createMake _ _ _)
  case none.ilist => exact Agree.head (createMake _ _ _)
  case some.default => exact Agree.head (createMake _ _ _)
  case some.from ty u => exact Agree.bind .rfl (evalSrcP_keep u) fun u => Agree.head (createFwd _ ty u)
  case some.inPlace => exact Agree.head (createMake _ _ _)
  case some.ilist => exact Agree.head (createMake _ _ _)

theorem constructP14_agree (a : Option A) (k : PCtor L Ty X) : Agree h (Polymorphic14.construct tr (lookingP base U) a k) (Polymorphic14.construct tr (fixedDP base U h D) a k) := by
  cases a <;> cases k <;> unfold Polymorphic14.construct
  case none.default => exact Agree.head (createMake _ _ _)
  case none.from ty u => exact Agree.bind .rfl (evalSrcP14_keep u) fun u => Agree.head (createFwd _ ty u)
  case none.inPlace => exact Agree.head (createMake _ _ _)
  case none.ilist => exact Agree.head (createMake _ _ _)
  case some.default => exact Agree.head (createMake _ _ _)
  case some.from ty u => exact Agree.bind .rfl (evalSrcP14_keep u) fun u => Agree.head (createFwd _ ty u)
  case some.inPlace => exact Agree.head (createMake _ _ _)
  case some.ilist => exact Agree.head (createMake _ _ _)

theorem stepP_agree (q : QuietP (U h)) (o : POp L A Ty V X) (hD : ∀ ty a p, Referred (dyingP tr h o) p → D ty a p = (U (dyingP tr h o)).dtor ty a p) :
    Agree h (Polymorphic.step tr (lookingP base U) o) (Polymorphic.step tr (fixedDP base U h D) o) := by
  cases o <;> unfold Polymorphic.step
  case make x a k => exact Agree.head (constructP_agree a k)
  case copy x y =>
    refine Agree.head ?_
    unfold Polymorphic.ctorCopy
    exact Agree.getH fun o _ => ctorCopyAP_agree _ y
  case copyA x a y => exact Agree.head (ctorCopyAP_agree a y)
  case move x y =>
    refine Agree.head ?_
    unfold Polymorphic.ctorMove
    exact Agree.noexceptIf _ (Agree.getH fun o _ => ctorMoveAP_agree _ y)
  case moveA x a y => exact Agree.head (ctorMoveAP_agree a y)
  case destroy x =>
    refine Agree.head ?_
    unfold Polymorphic.dtor
    exact Agree.noexceptIf _ (Agree.head (resetP_agree hD x))
  case assignCopy x y => exact Agree.head (assignCopyP_agree q x y hD)
  case assignMove x y => exact Agree.head (assignMoveP_agree q x y hD)
  all_goals exact .rfl

theorem stepP14_agree (q : QuietP (U h)) (o : POp L A Ty V X) (hD : ∀ ty a p, Referred (dyingP tr h o) p → D ty a p = (U (dyingP tr h o)).dtor ty a p) :
    Agree h (Polymorphic14.step tr (lookingP base U) o) (Polymorphic14.step tr (fixedDP base U h D) o) := by
  cases o <;> unfold Polymorphic14.step
  case make x a k => exact Agree.head (constructP14_agree a k)
  case copy x y =>
    refine Agree.head ?_
    unfold Polymorphic14.ctorCopy
    exact Agree.getH fun o _ => ctorCopyAP_agree _ y
  case copyA x a y => exact Agree.head (ctorCopyAP_agree a y)
  case move x y =>
    refine Agree.head ?_
    unfold Polymorphic14.ctorMove
    exact Agree.noexceptIf _ (Agree.getH fun o _ => ctorMoveAP14_agree _ y)
  case moveA x a y => exact Agree.head (ctorMoveAP14_agree a y)
  case destroy x =>
    refine Agree.head ?_
    unfold Polymorphic14.dtor
    exact Agree.noexceptIf _ (Agree.head (resetP_agree hD x))
  case assignCopy x y => exact Agree.head (assignCopyP_agree q x y hD)
  case assignMove x y => exact Agree.head (assignMoveP_agree q x y hD)
  all_goals exact .rfl

end

/-! ## Types that do not look at owners -/

section
variable {L A R V X : Type} [DecidableEq L] [DecidableEq R]

theorem Quiet.ofKeep {B α : Type} {m : M (St L A R B) α} (h : ∀ h, Keep h h m) : Quiet m := fun s a s' e => h s.hs s a s' rfl e

theorem Keep.choose {B : Type} {h : Owners L A} : Keep h h (Verif.choose : M (St L A R B) Nat) := by
  intro s a s' hs e
  cases e
  exact hs

theorem Keep.emit {B : Type} {h : Owners L A} {ev : Ev R} : Keep h h (Verif.emit ev : M (St L A R B) Unit) := by
  intro s a s' hs e
  cases e
  exact hs

theorem Keep.readObj {h : Owners L A} {p : Addr} : Keep h h (Verif.readObj p : M (St L A R (Obj V)) V) := by
  unfold Verif.readObj
  refine Keep.bind Keep.readBody fun b => ?_
  cases b with
  | none => exact Keep.undef
  | some c => exact Keep.pure

theorem Keep.writeObj {h : Owners L A} {p : Addr} {v : V} : Keep h h (Verif.writeObj p v : M (St L A R (Obj V)) Unit) :=
  Keep.bind Keep.readObj fun _ => Keep.writeBody

theorem Keep.finish {h : Owners L A} {p : Addr} {how : How} {r : Except Exn V} : Keep h h (Verif.finish p how r : M (St L A R (Obj V)) Unit) := by
  intro s a s' hs e
  cases r with
  | error x => cases e
  | ok v =>
    simp only [Verif.finish, beginObj] at e
    split at e <;> cases e
    exact hs

theorem plain_quiet (T : TSpec V X) : QuietT (plain T : TOps (St L A R (Obj V)) A X) where
  make _ _ _ := Quiet.ofKeep fun _ => Keep.bind Keep.choose fun _ => Keep.finish
  copyCtor _ _ _ := Quiet.ofKeep fun _ => Keep.bind Keep.readObj fun _ => Keep.bind Keep.choose fun _ => Keep.finish
  moveCtor _ _ _ := Quiet.ofKeep fun _ => Keep.bind Keep.readObj fun _ => Keep.bind Keep.choose fun _ => Keep.bind Keep.writeObj fun _ => Keep.finish

variable {Ty : Type} [DecidableEq Ty]

theorem Keep.readU {h : Owners L A} {ty : Ty} {p : Addr} : Keep h h (Verif.readU ty p : M (St L A R (PBody Ty V)) V) := by
  unfold Verif.readU
  refine Keep.bind (readCB_keep p) fun c => ?_
  cases c.u with
  | none => exact Keep.undef
  | some v =>
    show Keep h h (if c.ty = ty then _ else _)
    by_cases e : c.ty = ty
    · rw [if_pos e]; exact Keep.pure
    · rw [if_neg e]; exact Keep.undef

theorem Keep.writeU {h : Owners L A} {p : Addr} {v : V} : Keep h h (Verif.writeU p v : M (St L A R (PBody Ty V)) Unit) := by
  unfold Verif.writeU
  refine Keep.bind (readCB_keep p) fun c => ?_
  cases c.u with
  | none => exact Keep.undef
  | some v => exact Keep.writeBody

theorem Keep.finishU {h : Owners L A} {ty : Ty} {p : Addr} {how : How} {r : Except Exn V} : Keep h h (Verif.finishU ty p how r : M (St L A R (PBody Ty V)) Unit) := by
  intro s a s' hs e
  cases r with
  | error x => cases e
  | ok v =>
    simp only [Verif.finishU, beginU] at e
    split at e
    · split at e <;> cases e
      exact hs
    · cases e

theorem plainP_quiet (P : PSpec Ty V X) : QuietP (plainP P : POps (St L A R (PBody Ty V)) A Ty X) where
  make _ _ _ _ := Quiet.ofKeep fun _ => Keep.bind Keep.choose fun _ => Keep.finishU
  copyCtor _ _ _ _ := Quiet.ofKeep fun _ => Keep.bind Keep.readU fun _ => Keep.bind Keep.choose fun _ => Keep.finishU
  moveCtor _ _ _ _ := Quiet.ofKeep fun _ => Keep.bind Keep.readU fun _ => Keep.bind Keep.choose fun _ => Keep.bind Keep.writeU fun _ => Keep.finishU

end

/-! ## Destructors that come back to the owner -/

section
variable {L A R V X : Type} [DecidableEq L] [DecidableEq R]
variable {tr : ATraits A R} {x y : L} {s : St L A R (Obj V)} {a a' : A} {p : Addr}

theorem assignCopy_of_valueless {T : TOps (St L A R (Obj V)) A X} (hne : x ≠ y) (hy : s.hs y = some ⟨none, a'⟩) :
    Indirect.assignCopy tr T x y s = M.andThen (Indirect.reset tr T x) (fun _ => if tr.pocca then getH y >>= fun o => setAlloc x o.alloc >>= fun _ => pure x else pure x) s := by
  unfold Indirect.assignCopy
  simp only [if_neg hne, M.bind_eq, Indirect.valueless, getH, hy, M.andThen]
  rfl

theorem reset_of_ub {T : TOps (St L A R (Obj V)) A X} {u : UB} (hx : s.hs x = some ⟨some p, a⟩) (hd : T.dtor a p s = .ub u) : Indirect.reset tr T x s = .ub u := by
  simp [Indirect.reset, M.noexceptIf, M.bind_eq, getH, hx, Indirect.destroyWith, hd]

theorem returning_dtor {T : TSpec V X} {v : V} (hne : x ≠ y) (hx : s.hs x = some ⟨some p, a⟩) (hp : s.heap p = some ⟨tr.res a, some v⟩) (hy : s.hs y = some ⟨none, a'⟩) :
    ∀ n, (returning tr (plain T : TOps (St L A R (Obj V)) A X) x y (n + 1)).dtor a p s = .ub .deadObject
  | 0 => by
    show M.andThen (Indirect.assignCopy tr (plain T) x y) _ s = _
    unfold M.andThen
    rw [assignCopy_of_valueless hne hy]
    unfold M.andThen
    rw [Indirect.reset_some tr T hx rfl hp]
    by_cases hc : tr.pocca = true <;>
      simp [-bind_pure_comp, hc, M.bind_eq, getH, setAlloc, plain, endObj, readObj, readBody, upd, Ne.symm hne, hy]
  | n + 1 => by
    have := returning_dtor (T := T) hne hx hp hy n
    show M.andThen (Indirect.assignCopy tr (returning tr (plain T) x y (n + 1)) x y) _ s = _
    unfold M.andThen
    rw [assignCopy_of_valueless hne hy]
    unfold M.andThen
    rw [reset_of_ub hx this]

end

section
variable {L A R Ty V X : Type} [DecidableEq L] [DecidableEq R] [DecidableEq Ty]
variable {tr : ATraits A R} {x y : L} {s : St L A R (PBody Ty V)} {a a' : A} {p : Addr}

theorem assignCopyP_of_valueless {P : POps (St L A R (PBody Ty V)) A Ty X} (hne : x ≠ y) (hy : s.hs y = some ⟨none, a'⟩) :
    Polymorphic.assignCopy tr P x y s = M.andThen (Polymorphic.reset tr P x) (fun _ => if tr.pocca then getH y >>= fun o => setAlloc x o.alloc >>= fun _ => pure x else pure x) s := by
  unfold Polymorphic.assignCopy
  simp only [if_neg hne, M.bind_eq, Polymorphic.valueless, getH, hy, M.andThen]
  rfl

theorem resetP_of_ub {P : POps (St L A R (PBody Ty V)) A Ty X} {u : UB} {c : CB Ty V} {r : R} (hx : s.hs x = some ⟨some p, a⟩) (hp : s.heap p = some ⟨r, some c⟩)
    (hd : P.dtor c.ty a p s = .ub u) : Polymorphic.reset tr P x s = .ub u := by
  simp [Polymorphic.reset, M.noexceptIf, M.bind_eq, getH, hx, Polymorphic.vdestroy, readCB, readBody, hp, Polymorphic.destroyCB, hd]

theorem resetP_some {P : PSpec Ty V X} {c : CB Ty V} {v : V} (hx : s.hs x = some ⟨some p, a⟩) (hp : s.heap p = some ⟨tr.res a, some c⟩) (hv : c.u = some v) :
    Polymorphic.reset tr (plainP P : POps (St L A R (PBody Ty V)) A Ty X) x s = .ok () { s with
      heap := upd s.heap p none
      hs := upd s.hs x (some ⟨none, a⟩)
      trace := s.trace ++ [.destroy p, .dealloc (tr.res a) p] } := by
  simp [Polymorphic.reset, M.noexceptIf, M.bind_eq, getH, hx, Polymorphic.vdestroy, readCB, readBody, hp, Polymorphic.destroyCB, plainP, endU, readU, hv,
    writeBody, emit, deallocate, Body.occupied, setP]

theorem returningP_dtor {P : PSpec Ty V X} {c : CB Ty V} {v : V} (hne : x ≠ y) (hx : s.hs x = some ⟨some p, a⟩) (hp : s.heap p = some ⟨tr.res a, some c⟩) (hv : c.u = some v)
    (hy : s.hs y = some ⟨none, a'⟩) : ∀ n, (returningP tr (plainP P : POps (St L A R (PBody Ty V)) A Ty X) x y (n + 1)).dtor c.ty a p s = .ub .deadObject
  | 0 => by
    show M.andThen (Polymorphic.assignCopy tr (plainP P) x y) _ s = _
    unfold M.andThen
    rw [assignCopyP_of_valueless hne hy]
    unfold M.andThen
    rw [resetP_some hx hp hv]
    by_cases hc : tr.pocca = true <;>
      simp [-bind_pure_comp, hc, M.bind_eq, getH, setAlloc, plainP, endU, readU, readCB, readBody, upd, Ne.symm hne, hy]
  | n + 1 => by
    have := returningP_dtor (P := P) hne hx hp hv hy n
    show M.andThen (Polymorphic.assignCopy tr (returningP tr (plainP P) x y (n + 1)) x y) _ s = _
    unfold M.andThen
    rw [assignCopyP_of_valueless hne hy]
    unfold M.andThen
    rw [resetP_of_ub hx hp this]

end
end Verif.Looking
