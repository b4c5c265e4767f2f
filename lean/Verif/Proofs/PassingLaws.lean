import Verif.Proofs.Passing

/-!
# The relations of C93
-/

set_option autoImplicit false
set_option linter.unusedSectionVars false
set_option linter.unusedSimpArgs false

namespace Verif.Passing
open Verif Verif.Spec.Passing

section
variable {L A R B α β : Type} [DecidableEq L] [DecidableEq R] [Body B]

/-! ## A computation that does not throw: `Calm` -/

/-- Returns or ends the program. -/
def Calm (m : M (St L A R B) α) : Prop := Throws (fun _ => False) m

theorem Calm.pure (a : α) : Calm (Pure.pure a : M (St L A R B) α) := fun _ _ _ h => nomatch h
theorem Calm.undef (u : UB) : Calm (M.undef u : M (St L A R B) α) := fun _ _ _ h => nomatch h
theorem Calm.getH (l : L) : Calm (Verif.getH l : M (St L A R B) (Handle A)) := by
  intro s e s' h; unfold Verif.getH at h; split at h <;> cases h
theorem Calm.setP (l : L) (p : Option Addr) : Calm (Verif.setP l p : M (St L A R B) Unit) := by
  intro s e s' h; unfold Verif.setP at h; split at h <;> cases h
theorem Calm.setAlloc (l : L) (a : A) : Calm (Verif.setAlloc l a : M (St L A R B) Unit) := by
  intro s e s' h; unfold Verif.setAlloc at h; split at h <;> cases h
theorem Calm.emplace (l : L) (t : Handle A) : Calm (Verif.emplace l t : M (St L A R B) Unit) := by
  intro s e s' h; unfold Verif.emplace at h; split at h <;> cases h
theorem Calm.endLife (l : L) : Calm (Verif.endLife l : M (St L A R B) Unit) := by
  intro s e s' h; unfold Verif.endLife at h; split at h <;> cases h
theorem Calm.deallocate (r : R) (p : Addr) : Calm (Verif.deallocate r p : M (St L A R B) Unit) := by
  intro s e s' h
  unfold Verif.deallocate at h
  split at h
  · cases h
  · split at h
    · cases h
    · split at h <;> cases h
theorem Calm.readBody (p : Addr) : Calm (Verif.readBody p : M (St L A R B) B) := by
  intro s e s' h; unfold Verif.readBody at h; split at h <;> cases h
theorem Calm.writeBody (p : Addr) (b : B) : Calm (Verif.writeBody p b : M (St L A R B) Unit) := by
  intro s e s' h; unfold Verif.writeBody at h; split at h <;> cases h
theorem Calm.beginCB {Ty V : Type} (ty : Ty) (p : Addr) : Calm (Verif.beginCB ty p : M (St L A R (PBody Ty V)) Unit) := by
  intro s e s' h; unfold Verif.beginCB at h; split at h <;> cases h

/-- `allocate` throws `bad_alloc` only. -/
theorem allocate_throws (r : R) : Throws (· = .badAlloc) (allocate r : M (St L A R B) Addr) := by
  intro s e s' h
  unfold allocate at h
  simp only at h
  split at h
  · cases h; rfl
  · split at h <;> cases h
    rfl

theorem Throws.mono {σ : Type} {E E' : Exn → Prop} {m : M σ α} (h : Throws E m) (hE : ∀ e, E e → E' e) : Throws E' m := fun s e s' he => hE e (h s e s' he)

theorem Throws.bind {σ : Type} {E : Exn → Prop} {m : M σ α} {f : α → M σ β} (h1 : Throws E m) (h2 : ∀ a, Throws E (f a)) : Throws E (m >>= f) := by
  intro s e s' h
  have h : M.andThen m f s = .threw e s' := h
  unfold M.andThen at h
  cases hm : m s <;> rw [hm] at h <;> simp only at h
  case ok a t => exact h2 a t e s' h
  case threw e' t => cases h; exact h1 s e s' hm
  all_goals cases h

theorem Throws.onThrow {σ : Type} {E : Exn → Prop} {m : M σ α} {c : M σ Unit} (h1 : Throws E m) (h2 : Throws E c) : Throws E (M.onThrow m c) := by
  intro s e s' h
  unfold M.onThrow at h
  cases hm : m s <;> rw [hm] at h <;> simp only at h
  case threw e' t =>
    cases hc : c t <;> rw [hc] at h <;> simp only at h <;> cases h
    · exact h1 s e t hm
    · exact h2 t e s' hc
  all_goals cases h

theorem Throws.noexceptIf {σ : Type} {E : Exn → Prop} {m : M σ α} (b : Bool) (h1 : Throws E m) : Throws E (M.noexceptIf b m) := by
  intro s e s' h
  unfold M.noexceptIf at h
  cases hm : m s <;> rw [hm] at h <;> simp only at h
  case threw e' t =>
    cases b
    · cases h; exact h1 s e s' hm
    · cases h
  all_goals cases h

theorem noexcept_calm {σ : Type} (m : M σ α) : Throws (fun _ => False) (M.noexceptIf true m) := by
  intro s e s' h
  unfold M.noexceptIf at h
  cases hm : m s <;> rw [hm] at h <;> cases h

/-! ## Exceptions of `E` -/

theorem throws_cong {E : Exn → Prop} (hE : E .badAlloc) : Cong L A R B (fun m _ => Throws E m) where
  pure a := Throws.mono (Calm.pure a) fun _ h => h.elim
  undef u := Throws.mono (Calm.undef u) fun _ h => h.elim
  getH l := Throws.mono (Calm.getH l) fun _ h => h.elim
  setP l p := Throws.mono (Calm.setP l p) fun _ h => h.elim
  setAlloc l a := Throws.mono (Calm.setAlloc l a) fun _ h => h.elim
  emplace l h := Throws.mono (Calm.emplace l h) fun _ h => h.elim
  endLife l := Throws.mono (Calm.endLife l) fun _ h => h.elim
  allocate r := Throws.mono (allocate_throws r) fun _ h => h ▸ hE
  deallocate r p := Throws.mono (Calm.deallocate r p) fun _ h => h.elim
  readBody p := Throws.mono (Calm.readBody p) fun _ h => h.elim
  writeBody p b := Throws.mono (Calm.writeBody p b) fun _ h => h.elim
  bind h1 h2 := Throws.bind h1 h2
  onThrow h1 h2 := Throws.onThrow h1 h2
  noexceptIf b _ _ h := Throws.noexceptIf b h

/-! ## Renamed exceptions -/

/-- What throws nothing does not change. -/
theorem rename_calm {σ : Type} {f : Exn → Exn} {m : M σ α} (h : Throws (fun e => f e = e) m) (s : σ) : m s = rename f (m s) := by
  cases hm : m s with
  | threw e t => show Res.threw e t = Res.threw (f e) t; rw [h s e t hm]
  | _ => rfl

theorem renamed_cong {f : Exn → Exn} (hf : f .badAlloc = .badAlloc) : Cong L A R B (fun m m' => ∀ s, m' s = rename f (m s)) where
  pure a := rename_calm (Throws.mono (Calm.pure a) fun _ h => h.elim)
  undef u := rename_calm (Throws.mono (Calm.undef u) fun _ h => h.elim)
  getH l := rename_calm (Throws.mono (Calm.getH l) fun _ h => h.elim)
  setP l p := rename_calm (Throws.mono (Calm.setP l p) fun _ h => h.elim)
  setAlloc l a := rename_calm (Throws.mono (Calm.setAlloc l a) fun _ h => h.elim)
  emplace l h := rename_calm (Throws.mono (Calm.emplace l h) fun _ h => h.elim)
  endLife l := rename_calm (Throws.mono (Calm.endLife l) fun _ h => h.elim)
  allocate r := rename_calm (Throws.mono (allocate_throws r) fun _ h => h ▸ hf)
  deallocate r p := rename_calm (Throws.mono (Calm.deallocate r p) fun _ h => h.elim)
  readBody p := rename_calm (Throws.mono (Calm.readBody p) fun _ h => h.elim)
  writeBody p b := rename_calm (Throws.mono (Calm.writeBody p b) fun _ h => h.elim)
  bind {α β m m' g g'} h1 h2 s := by
    show M.andThen m' g' s = rename f (M.andThen m g s)
    unfold M.andThen
    rw [h1 s]
    cases m s with
    | ok a t => exact h2 a t
    | _ => rfl
  onThrow {α m m' c c'} h1 h2 s := by
    unfold M.onThrow
    rw [h1 s]
    cases m s with
    | threw e t =>
      simp only [rename]
      rw [h2 t]
      cases c t <;> rfl
    | _ => rfl
  noexceptIf {α} b m m' h s := by
    unfold M.noexceptIf
    rw [h s]
    cases m s with
    | threw e t => cases b <;> rfl
    | _ => rfl

/-! ## Exceptions are not lost -/

theorem fatal_of {σ : Type} {m : M σ α} (s : σ) (a : α) (s' : σ) (h : m s = .ok a s') : fatalM m s = .ok a s' := by
  unfold fatalM
  rw [h]

theorem fatal_cong : Cong L A R B (fun {α} m m' => ∀ s (a : α) s', m s = .ok a s' → m' s = .ok a s') where
  pure _ _ _ _ h := h
  undef _ _ _ _ h := h
  getH _ _ _ _ h := h
  setP _ _ _ _ _ h := h
  setAlloc _ _ _ _ _ h := h
  emplace _ _ _ _ _ h := h
  endLife _ _ _ _ h := h
  allocate _ _ _ _ h := h
  deallocate _ _ _ _ _ h := h
  readBody _ _ _ _ h := h
  writeBody _ _ _ _ _ h := h
  bind {α β m m' g g'} h1 h2 s a s' h := by
    have h : M.andThen m g s = .ok a s' := h
    show M.andThen m' g' s = .ok a s'
    unfold M.andThen at h ⊢
    cases hm : m s <;> rw [hm] at h <;> simp only at h
    case ok b t => rw [h1 s b t hm]; exact h2 b t a s' h
    all_goals cases h
  onThrow {α m m' c c'} h1 h2 s a s' h := by
    unfold M.onThrow at h ⊢
    cases hm : m s <;> rw [hm] at h <;> simp only at h
    case ok b t => cases h; rw [h1 s a s' hm]
    case threw e t => cases hc : c t <;> rw [hc] at h <;> cases h
    all_goals cases h
  noexceptIf {α} b m m' h1 s a s' h := by
    unfold M.noexceptIf at h ⊢
    cases hm : m s <;> rw [hm] at h <;> simp only at h
    case ok b t => cases h; rw [h1 s a s' hm]
    case threw e t => cases b <;> cases h
    all_goals cases h

/-! ## Refused allocations are not lost -/

theorem Supplied.same {m : M (St L A R B) α} (h : ∀ s a s', m s = .ok a s' → s'.env = s.env ∧ s'.ai = s.ai) : Supplied m := by
  intro s a s' hm
  obtain ⟨h1, h2⟩ := h s a s' hm
  exact ⟨h1, h2 ▸ Nat.le_refl _, fun i hi hi' => absurd hi' (by rw [h2]; exact Nat.not_lt.2 hi)⟩

theorem Supplied.getH (l : L) : Supplied (Verif.getH l : M (St L A R B) (Handle A)) := Supplied.same fun s a s' h => by unfold Verif.getH at h; split at h <;> cases h; exact ⟨rfl, rfl⟩
theorem Supplied.setP (l : L) (p : Option Addr) : Supplied (Verif.setP l p : M (St L A R B) Unit) := Supplied.same fun s a s' h => by
  unfold Verif.setP at h; split at h <;> cases h; exact ⟨rfl, rfl⟩
theorem Supplied.setAlloc (l : L) (a : A) : Supplied (Verif.setAlloc l a : M (St L A R B) Unit) := Supplied.same fun s a s' h => by
  unfold Verif.setAlloc at h; split at h <;> cases h; exact ⟨rfl, rfl⟩
theorem Supplied.emplace (l : L) (t : Handle A) : Supplied (Verif.emplace l t : M (St L A R B) Unit) := Supplied.same fun s a s' h => by
  unfold Verif.emplace at h; split at h <;> cases h; exact ⟨rfl, rfl⟩
theorem Supplied.endLife (l : L) : Supplied (Verif.endLife l : M (St L A R B) Unit) := Supplied.same fun s a s' h => by
  unfold Verif.endLife at h; split at h <;> cases h; exact ⟨rfl, rfl⟩
theorem Supplied.deallocate (r : R) (p : Addr) : Supplied (Verif.deallocate r p : M (St L A R B) Unit) := Supplied.same fun s a s' h => by
  unfold Verif.deallocate at h
  split at h
  · cases h
  · split at h
    · cases h
    · split at h <;> cases h
      exact ⟨rfl, rfl⟩
theorem Supplied.readBody (p : Addr) : Supplied (Verif.readBody p : M (St L A R B) B) := Supplied.same fun s a s' h => by
  unfold Verif.readBody at h; split at h <;> cases h; exact ⟨rfl, rfl⟩
theorem Supplied.writeBody (p : Addr) (b : B) : Supplied (Verif.writeBody p b : M (St L A R B) Unit) := Supplied.same fun s a s' h => by
  unfold Verif.writeBody at h; split at h <;> cases h; exact ⟨rfl, rfl⟩
theorem Supplied.beginCB {Ty V : Type} (ty : Ty) (p : Addr) : Supplied (Verif.beginCB ty p : M (St L A R (PBody Ty V)) Unit) := Supplied.same fun s a s' h => by
  unfold Verif.beginCB at h; split at h <;> cases h; exact ⟨rfl, rfl⟩

theorem Supplied.allocate (r : R) : Supplied (Verif.allocate r : M (St L A R B) Addr) := by
  intro s a s' h
  unfold Verif.allocate at h
  simp only at h
  split at h
  · cases h
  · rename_i hf
    split at h <;> cases h
    refine ⟨rfl, Nat.le_succ _, fun i hi hi' => ?_⟩
    have : i = s.ai := Nat.le_antisymm (Nat.lt_succ_iff.1 hi') hi
    rw [this]
    exact Bool.eq_false_iff.2 hf

theorem Supplied.bind {m : M (St L A R B) α} {f : α → M (St L A R B) β} (h1 : Supplied m) (h2 : ∀ a, Supplied (f a)) : Supplied (m >>= f) := by
  intro s a s' h
  have h : M.andThen m f s = .ok a s' := h
  unfold M.andThen at h
  cases hm : m s <;> rw [hm] at h <;> simp only at h
  case ok b t =>
    obtain ⟨e1, l1, f1⟩ := h1 s b t hm
    obtain ⟨e2, l2, f2⟩ := h2 b t a s' h
    refine ⟨e2.trans e1, Nat.le_trans l1 l2, fun i hi hi' => ?_⟩
    by_cases hlt : i < t.ai
    · exact f1 i hi hlt
    · rw [← e1]; exact f2 i (Nat.not_lt.1 hlt) hi'
  all_goals cases h

theorem supplied_cong : Cong L A R B (fun m _ => Supplied m) where
  pure a := Supplied.same fun s b s' h => by cases h; exact ⟨rfl, rfl⟩
  undef u := fun _ _ _ h => nomatch h
  getH := Supplied.getH
  setP := Supplied.setP
  setAlloc := Supplied.setAlloc
  emplace := Supplied.emplace
  endLife := Supplied.endLife
  allocate := Supplied.allocate
  deallocate := Supplied.deallocate
  readBody := Supplied.readBody
  writeBody := Supplied.writeBody
  bind h1 h2 := Supplied.bind h1 h2
  onThrow {α m m' c c'} h1 h2 s a s' h := by
    unfold M.onThrow at h
    cases hm : m s <;> rw [hm] at h <;> simp only at h
    case ok b t => cases h; exact h1 s a s' hm
    case threw e t => cases hc : c t <;> rw [hc] at h <;> cases h
    all_goals cases h
  noexceptIf {α} b m m' h1 s a s' h := by
    unfold M.noexceptIf at h
    cases hm : m s <;> rw [hm] at h <;> simp only at h
    case ok b t => cases h; exact h1 s a s' hm
    case threw e t => cases b <;> cases h
    all_goals cases h

/-! ## Equal computations -/

theorem eq_cong : Cong L A R B (fun m m' => m = m') where
  pure _ := rfl
  undef _ := rfl
  getH _ := rfl
  setP _ _ := rfl
  setAlloc _ _ := rfl
  emplace _ _ := rfl
  endLife _ := rfl
  allocate _ := rfl
  deallocate _ _ := rfl
  readBody _ := rfl
  writeBody _ _ := rfl
  bind h1 h2 := by rw [h1, funext h2]
  onThrow h1 h2 := by rw [h1, h2]
  noexceptIf _ _ _ h := by rw [h]

/-- Within `noexcept` it does not matter whether an exception leaves the part that throws it or ends the program there. -/
theorem noexcept_idem {σ : Type} (m : M σ α) : M.noexceptIf true (M.noexceptIf true m) = M.noexceptIf true m := by
  funext s
  unfold M.noexceptIf
  cases h : m s <;> simp [h]

theorem noexcept_eq {σ : Type} (m : M σ α) (s : σ) : M.noexceptIf true m s = match m s with | .threw _ _ => .terminated | r => r := by
  unfold M.noexceptIf
  cases m s <;> rfl

theorem noexcept_left {σ : Type} {m m' : M σ α} {f : α → M σ β} (h : M.noexceptIf true m = M.noexceptIf true m') : M.noexceptIf true (m >>= f) = M.noexceptIf true (m' >>= f) := by
  funext s
  have hs := congrFun h s
  show M.noexceptIf true (M.andThen m f) s = M.noexceptIf true (M.andThen m' f) s
  rw [noexcept_eq, noexcept_eq] at hs ⊢
  unfold M.andThen
  revert hs
  cases m s <;> cases m' s <;> intro hs <;> dsimp only at hs ⊢ <;> first | (cases hs; done) | (cases hs; rfl) | rfl

theorem noexcept_right {σ : Type} {m : M σ α} {f f' : α → M σ β} (h : ∀ a, M.noexceptIf true (f a) = M.noexceptIf true (f' a)) : M.noexceptIf true (m >>= f) = M.noexceptIf true (m >>= f') := by
  funext s
  show M.noexceptIf true (M.andThen m f) s = M.noexceptIf true (M.andThen m f') s
  unfold M.noexceptIf M.andThen
  cases h1 : m s <;> simp only
  case ok a t => exact congrFun (h a) t

end

section
variable {L A R B X : Type} [DecidableEq L] [DecidableEq R] [Body B] {tr : ATraits A R}

theorem reset_dtor (T : TOps (St L A R B) A X) (l : L) : Indirect.reset tr T l = Indirect.reset tr { T with dtor := fun a p => M.noexceptIf true (T.dtor a p) } l := by
  unfold Indirect.reset
  refine noexcept_right fun t => ?_
  cases t.p with
  | none => rfl
  | some p => exact noexcept_left (noexcept_left (noexcept_idem _).symm)

theorem reset_calm (T : TOps (St L A R B) A X) (l : L) : Calm (Indirect.reset tr T l) := noexcept_calm _

theorem deref_calm (l : L) : Calm (Indirect.deref l : M (St L A R B) Addr) := by
  unfold Indirect.deref
  refine Throws.bind (Calm.getH l) fun t => ?_
  cases t.p with
  | none => exact Calm.undef _
  | some p => exact Calm.pure _

theorem valueless_calm (l : L) : Calm (Indirect.valueless l : M (St L A R B) Bool) := Throws.bind (Calm.getH l) fun _ => Calm.pure _

theorem ite_calm {α : Type} {c : Prop} [Decidable c] {m n : M (St L A R B) α} (h1 : Calm m) (h2 : Calm n) : Calm (if c then m else n) := by
  by_cases hc : c
  · rw [if_pos hc]; exact h1
  · rw [if_neg hc]; exact h2

theorem swap_calm (x y : L) : Calm (Indirect.swap tr x y : M (St L A R B) Unit) := by
  unfold Indirect.swap
  refine Throws.noexceptIf _ (Throws.bind (Calm.getH x) fun t => Throws.bind (Calm.getH y) fun o => ite_calm ?_ (ite_calm ?_ (Calm.undef _)))
  · exact Throws.bind (Calm.setAlloc _ _) fun _ => Throws.bind (Calm.setAlloc _ _) fun _ => Throws.bind (Calm.setP _ _) fun _ => Calm.setP _ _
  · exact Throws.bind (Calm.setP _ _) fun _ => Calm.setP _ _

end

section
variable {L A R V X : Type} [DecidableEq L] [DecidableEq R] {tr : ATraits A R}

theorem readObj_calm (p : Addr) : Calm (readObj p : M (St L A R (Obj V)) V) := by
  unfold readObj
  refine Throws.bind (Calm.readBody p) fun b => ?_
  cases b with
  | none => exact Calm.undef _
  | some v => exact Calm.pure _

theorem step_calm (T : TOps (St L A R (Obj V)) A X) {o : Op L A V X} (ho : NeverThrows o) : Calm (Indirect.step tr T o) := by
  cases o <;> first | exact ho.elim | unfold Indirect.step
  case destroy x => exact Throws.bind (noexcept_calm _) fun _ => Calm.pure _
  case swap x y => exact Throws.bind (swap_calm x y) fun _ => Calm.pure _
  case friendSwap x y => exact Throws.bind (Throws.noexceptIf _ (swap_calm x y)) fun _ => Calm.pure _
  case valueless x => exact Throws.bind (valueless_calm x) fun _ => Calm.pure _
  case getAllocator x => exact Throws.bind (Throws.bind (Calm.getH x) fun _ => Calm.pure _) fun _ => Calm.pure _
  case deref x => exact Throws.bind (deref_calm x) fun p => Throws.bind (readObj_calm p) fun _ => Calm.pure _
  case arrow x => exact Throws.bind (deref_calm x) fun p => Throws.bind (readObj_calm p) fun _ => Calm.pure _

theorem renamed_rel (f : Exn → Exn) (hf : f .badAlloc = .badAlloc) (T : TOps (St L A R (Obj V)) A X) : RelT tr (fun m m' => ∀ s, m' s = rename f (m s)) T (renamed f T) where
  make _ _ _ _ := rfl
  copyCtor _ _ _ _ := rfl
  moveCtor _ _ _ _ := rfl
  copyAssign _ _ _ := rfl
  moveAssign _ _ _ := rfl
  assignArg _ _ _ := rfl
  reset l := reset_rel (renamed_cong hf) (fun _ _ _ => rfl) l
  assignable := rfl
  copyAssignable := rfl

theorem throws_rel {E : Exn → Prop} {T : TOps (St L A R (Obj V)) A X} (hT : ThrowsT E T) : RelT tr (fun m _ => Throws E m) T T where
  make := hT.make
  copyCtor := hT.copyCtor
  moveCtor := hT.moveCtor
  copyAssign := hT.copyAssign
  moveAssign := hT.moveAssign
  assignArg := hT.assignArg
  reset l := Throws.mono (reset_calm T l) fun _ h => h.elim
  assignable := rfl
  copyAssignable := rfl

theorem fatal_rel (T : TOps (St L A R (Obj V)) A X) : RelT tr (fun {α} m m' => ∀ s (a : α) s', m s = .ok a s' → m' s = .ok a s') T (fatal T) where
  make _ _ _ := fatal_of
  copyCtor _ _ _ := fatal_of
  moveCtor _ _ _ := fatal_of
  copyAssign _ _ := fatal_of
  moveAssign _ _ := fatal_of
  assignArg _ _ := fatal_of
  reset l := reset_rel fatal_cong (fun _ _ => fatal_of) l
  assignable := rfl
  copyAssignable := rfl

theorem supplied_rel {T : TOps (St L A R (Obj V)) A X} (hT : SuppliedT T) : RelT tr (fun m _ => Supplied m) T T where
  make := hT.make
  copyCtor := hT.copyCtor
  moveCtor := hT.moveCtor
  copyAssign := hT.copyAssign
  moveAssign := hT.moveAssign
  assignArg := hT.assignArg
  reset l := reset_rel (T' := T) supplied_cong hT.dtor l
  assignable := rfl
  copyAssignable := rfl

theorem dtor_rel (T : TOps (St L A R (Obj V)) A X) : RelT tr (fun m m' => m = m') T { T with dtor := fun a p => M.noexceptIf true (T.dtor a p) } where
  make _ _ _ := rfl
  copyCtor _ _ _ := rfl
  moveCtor _ _ _ := rfl
  copyAssign _ _ := rfl
  moveAssign _ _ := rfl
  assignArg _ _ := rfl
  reset l := reset_dtor T l
  assignable := rfl
  copyAssignable := rfl

end

section
variable {L A R Ty V X : Type} [DecidableEq L] [DecidableEq R] [DecidableEq Ty] {tr : ATraits A R}

theorem resetP_dtor (P : POps (St L A R (PBody Ty V)) A Ty X) (l : L) : Polymorphic.reset tr P l = Polymorphic.reset tr { P with dtor := fun ty a p => M.noexceptIf true (P.dtor ty a p) } l := by
  unfold Polymorphic.reset
  refine noexcept_right fun t => ?_
  cases t.p with
  | none => rfl
  | some p => exact noexcept_left (noexcept_right fun _ => noexcept_left (noexcept_idem _).symm)

theorem resetP_calm (P : POps (St L A R (PBody Ty V)) A Ty X) (l : L) : Calm (Polymorphic.reset tr P l) := noexcept_calm _

theorem readCB_calm (p : Addr) : Calm (readCB p : M (St L A R (PBody Ty V)) (CB Ty V)) := by
  unfold readCB
  refine Throws.bind (Calm.readBody p) fun b => ?_
  cases b with
  | none => exact Calm.undef _
  | some c => exact Calm.pure _

theorem derefP_calm (l : L) : Calm (Polymorphic.deref l : M (St L A R (PBody Ty V)) Addr) := by
  unfold Polymorphic.deref
  refine Throws.bind (deref_calm l) fun p => Throws.bind (readCB_calm p) fun c => ?_
  cases c.p with
  | none => exact Calm.undef _
  | some q => exact Calm.pure _

theorem readAny_calm (p : Addr) : Calm (readAny p : M (St L A R (PBody Ty V)) (Ty × V)) := by
  unfold readAny
  refine Throws.bind (readCB_calm p) fun c => ?_
  cases c.u with
  | none => exact Calm.undef _
  | some v => exact Calm.pure _

theorem stepP_calm (P : POps (St L A R (PBody Ty V)) A Ty X) {o : POp L A Ty V X} (ho : NeverThrowsP o) : Calm (Polymorphic.step tr P o) := by
  cases o <;> first | exact ho.elim | unfold Polymorphic.step
  case destroy x => exact Throws.bind (noexcept_calm _) fun _ => Calm.pure _
  case swap x y => exact Throws.bind (swap_calm x y) fun _ => Calm.pure _
  case friendSwap x y => exact Throws.bind (Throws.noexceptIf _ (swap_calm x y)) fun _ => Calm.pure _
  case valueless x => exact Throws.bind (valueless_calm x) fun _ => Calm.pure _
  case getAllocator x => exact Throws.bind (Throws.bind (Calm.getH x) fun _ => Calm.pure _) fun _ => Calm.pure _
  case deref x => exact Throws.bind (derefP_calm x) fun p => Throws.bind (readAny_calm p) fun _ => Calm.pure _
  case arrow x => exact Throws.bind (derefP_calm x) fun p => Throws.bind (readAny_calm p) fun _ => Calm.pure _

theorem stepP14_calm (P : POps (St L A R (PBody Ty V)) A Ty X) {o : POp L A Ty V X} (ho : NeverThrowsP o) : Calm (Polymorphic14.step tr P o) := by
  cases o <;> first | exact ho.elim | unfold Polymorphic14.step
  case destroy x => exact Throws.bind (noexcept_calm _) fun _ => Calm.pure _
  case swap x y => exact Throws.bind (swap_calm x y) fun _ => Calm.pure _
  case friendSwap x y => exact Throws.bind (Throws.noexceptIf _ (swap_calm x y)) fun _ => Calm.pure _
  case valueless x => exact Throws.bind (valueless_calm x) fun _ => Calm.pure _
  case getAllocator x => exact Throws.bind (Throws.bind (Calm.getH x) fun _ => Calm.pure _) fun _ => Calm.pure _
  case deref x => exact Throws.bind (derefP_calm x) fun p => Throws.bind (readAny_calm p) fun _ => Calm.pure _
  case arrow x => exact Throws.bind (derefP_calm x) fun p => Throws.bind (readAny_calm p) fun _ => Calm.pure _

theorem renamedP_rel (f : Exn → Exn) (hf : f .badAlloc = .badAlloc) {P : POps (St L A R (PBody Ty V)) A Ty X} (hb : DefaultBlock P) :
    RelP tr (fun m m' => ∀ s, m' s = rename f (m s)) P (renamedP f P) where
  make _ _ _ _ _ := rfl
  copyCtor _ _ _ _ _ := rfl
  moveCtor _ _ _ _ _ := rfl
  reset l := resetP_rel (renamed_cong hf) (fun _ _ _ _ => rfl) l
  base := rfl
  block := hb
  block' := hb
  begin _ _ := rename_calm (Throws.mono (Calm.beginCB _ _) fun _ h => h.elim)

theorem throwsP_rel {E : Exn → Prop} {P : POps (St L A R (PBody Ty V)) A Ty X} (hb : DefaultBlock P) (hP : ThrowsP E P) : RelP tr (fun m _ => Throws E m) P P where
  make := hP.make
  copyCtor := hP.copyCtor
  moveCtor := hP.moveCtor
  reset l := Throws.mono (resetP_calm P l) fun _ h => h.elim
  base := rfl
  block := hb
  block' := hb
  begin _ _ := Throws.mono (Calm.beginCB _ _) fun _ h => h.elim

theorem fatalP_rel {P : POps (St L A R (PBody Ty V)) A Ty X} (hb : DefaultBlock P) : RelP tr (fun {α} m m' => ∀ s (a : α) s', m s = .ok a s' → m' s = .ok a s') P (fatalP P) where
  make _ _ _ _ := fatal_of
  copyCtor _ _ _ _ := fatal_of
  moveCtor _ _ _ _ := fatal_of
  reset l := resetP_rel fatal_cong (fun _ _ _ => fatal_of) l
  base := rfl
  block := hb
  block' := hb
  begin _ _ _ _ _ h := h

theorem suppliedP_rel {P : POps (St L A R (PBody Ty V)) A Ty X} (hb : DefaultBlock P) (hP : SuppliedP P) : RelP tr (fun m _ => Supplied m) P P where
  make := hP.make
  copyCtor := hP.copyCtor
  moveCtor := hP.moveCtor
  reset l := resetP_rel (P' := P) supplied_cong hP.dtor l
  base := rfl
  block := hb
  block' := hb
  begin := Supplied.beginCB

theorem dtorP_rel {P : POps (St L A R (PBody Ty V)) A Ty X} (hb : DefaultBlock P) : RelP tr (fun m m' => m = m') P { P with dtor := fun ty a p => M.noexceptIf true (P.dtor ty a p) } where
  make _ _ _ _ := rfl
  copyCtor _ _ _ _ := rfl
  moveCtor _ _ _ _ := rfl
  reset l := resetP_dtor P l
  base := rfl
  block := hb
  block' := hb
  begin _ _ := rfl

end

/-! ## Types that own nothing -/

section
variable {L A R V X : Type} [DecidableEq L] [DecidableEq R]

theorem supplied_throw {B α : Type} (e : Exn) : Supplied (M.throwE e : M (St L A R B) α) := fun _ _ _ h => nomatch h

theorem supplied_emit {B : Type} [Body B] (ev : Ev R) : Supplied (emit ev : M (St L A R B) Unit) := Supplied.same fun s a s' h => by cases h; exact ⟨rfl, rfl⟩

theorem supplied_choose {B : Type} [Body B] : Supplied (choose : M (St L A R B) Nat) := Supplied.same fun s a s' h => by cases h; exact ⟨rfl, rfl⟩

theorem supplied_rethrow {B : Type} [Body B] (e : Option Exn) : Supplied (rethrow e : M (St L A R B) Unit) := by
  cases e
  · exact supplied_cong.pure ()
  · exact supplied_throw _

theorem supplied_writeObj (p : Addr) (v : V) : Supplied (writeObj p v : M (St L A R (Obj V)) Unit) :=
  Supplied.bind (readObj_rel supplied_cong p) fun _ => Supplied.writeBody p _

theorem supplied_finish (p : Addr) (how : How) (x : Except Exn V) : Supplied (finish p how x : M (St L A R (Obj V)) Unit) := by
  cases x
  · exact supplied_throw _
  · refine Supplied.same fun s a s' h => ?_
    simp only [finish, beginObj] at h
    split at h <;> cases h
    exact ⟨rfl, rfl⟩

/-- Types that own nothing allocate nothing. -/
theorem plain_supplied (T : TSpec V X) : SuppliedT (plain T : TOps (St L A R (Obj V)) A X) where
  make _ _ _ := Supplied.bind supplied_choose fun _ => supplied_finish _ _ _
  copyCtor _ _ q := Supplied.bind (readObj_rel supplied_cong q) fun _ => Supplied.bind supplied_choose fun _ => supplied_finish _ _ _
  moveCtor _ _ q := Supplied.bind (readObj_rel supplied_cong q) fun _ => Supplied.bind supplied_choose fun _ => Supplied.bind (supplied_writeObj _ _) fun _ => supplied_finish _ _ _
  copyAssign d q := Supplied.bind (readObj_rel supplied_cong d) fun _ => Supplied.bind (readObj_rel supplied_cong q) fun _ => Supplied.bind supplied_choose fun _ =>
    Supplied.bind (supplied_emit _) fun _ => Supplied.bind (supplied_writeObj _ _) fun _ => supplied_rethrow _
  moveAssign d q := Supplied.bind (readObj_rel supplied_cong d) fun _ => Supplied.bind (readObj_rel supplied_cong q) fun _ => Supplied.bind supplied_choose fun _ =>
    Supplied.bind (supplied_emit _) fun _ => Supplied.bind (supplied_writeObj _ _) fun _ => Supplied.bind (supplied_writeObj _ _) fun _ => supplied_rethrow _
  assignArg d _ := Supplied.bind (readObj_rel supplied_cong d) fun _ => Supplied.bind supplied_choose fun _ =>
    Supplied.bind (supplied_emit _) fun _ => Supplied.bind (supplied_writeObj _ _) fun _ => supplied_rethrow _
  dtor _ p := Supplied.bind (readObj_rel supplied_cong p) fun _ => Supplied.bind (Supplied.writeBody _ _) fun _ => supplied_emit _

theorem throws_emit {B : Type} {E : Exn → Prop} (ev : Ev R) : Throws E (emit ev : M (St L A R B) Unit) := fun _ _ _ h => nomatch h

theorem throws_choose {B : Type} {E : Exn → Prop} : Throws E (choose : M (St L A R B) Nat) := fun _ _ _ h => nomatch h

theorem throws_rethrow {B : Type} {E : Exn → Prop} {e : Option Exn} (h : ∀ x, e = some x → E x) : Throws E (rethrow e : M (St L A R B) Unit) := by
  intro s x s' hx
  cases e
  · cases hx
  · cases hx; exact h _ rfl

theorem throws_readObj {E : Exn → Prop} (p : Addr) : Throws E (readObj p : M (St L A R (Obj V)) V) := Throws.mono (readObj_calm p) fun _ h => h.elim

theorem throws_writeObj {E : Exn → Prop} (p : Addr) (v : V) : Throws E (writeObj p v : M (St L A R (Obj V)) Unit) :=
  Throws.bind (throws_readObj p) fun _ => Throws.mono (Calm.writeBody p _) fun _ h => h.elim

theorem throws_finish {E : Exn → Prop} (p : Addr) (how : How) {x : Except Exn V} (h : ∀ e, x = .error e → E e) : Throws E (finish p how x : M (St L A R (Obj V)) Unit) := by
  intro s e s' he
  cases x
  · cases he; exact h _ rfl
  · simp only [finish, beginObj] at he
    split at he <;> cases he

/-- Exceptions of a type that owns nothing. -/
theorem plain_throws {E : Exn → Prop} (T : TSpec V X) (h1 : ∀ xs n e, T.make xs n = .error e → E e) (h2 : ∀ v n e, T.copy v n = .error e → E e)
    (h3 : ∀ v n e, (T.move v n).1 = .error e → E e) (h4 : ∀ d v n e, (T.copyAssign d v n).1 = some e → E e) (h5 : ∀ d v n e, (T.moveAssign d v n).1 = some e → E e)
    (h6 : ∀ d x n e, (T.assignArg d x n).1 = some e → E e) : ThrowsT E (plain T : TOps (St L A R (Obj V)) A X) where
  make _ _ _ := Throws.bind throws_choose fun _ => throws_finish _ _ (h1 _ _)
  copyCtor _ _ q := Throws.bind (throws_readObj q) fun _ => Throws.bind throws_choose fun _ => throws_finish _ _ (h2 _ _)
  moveCtor _ _ q := Throws.bind (throws_readObj q) fun _ => Throws.bind throws_choose fun _ => Throws.bind (throws_writeObj _ _) fun _ => throws_finish _ _ (h3 _ _)
  copyAssign d q := Throws.bind (throws_readObj d) fun _ => Throws.bind (throws_readObj q) fun _ => Throws.bind throws_choose fun _ =>
    Throws.bind (throws_emit _) fun _ => Throws.bind (throws_writeObj _ _) fun _ => throws_rethrow (h4 _ _ _)
  moveAssign d q := Throws.bind (throws_readObj d) fun _ => Throws.bind (throws_readObj q) fun _ => Throws.bind throws_choose fun _ =>
    Throws.bind (throws_emit _) fun _ => Throws.bind (throws_writeObj _ _) fun _ => Throws.bind (throws_writeObj _ _) fun _ => throws_rethrow (h5 _ _ _)
  assignArg d _ := Throws.bind (throws_readObj d) fun _ => Throws.bind throws_choose fun _ =>
    Throws.bind (throws_emit _) fun _ => Throws.bind (throws_writeObj _ _) fun _ => throws_rethrow (h6 _ _ _)

end

section
variable {L A R Ty V X : Type} [DecidableEq L] [DecidableEq R] [DecidableEq Ty]

theorem supplied_readU (ty : Ty) (p : Addr) : Supplied (readU ty p : M (St L A R (PBody Ty V)) V) := by
  unfold readU
  refine Supplied.bind (readCB_rel supplied_cong p) fun c => ?_
  cases c.u with
  | none => exact supplied_cong.undef _
  | some v => exact Cong.ite (rel := fun m _ => Supplied m) (m' := M.undef .deadObject) (n' := M.undef .deadObject) (supplied_cong.pure v) (supplied_cong.undef _)

theorem supplied_finishU (ty : Ty) (p : Addr) (how : How) (x : Except Exn V) : Supplied (finishU ty p how x : M (St L A R (PBody Ty V)) Unit) := by
  cases x
  · exact supplied_throw _
  · refine Supplied.same fun s a s' h => ?_
    simp only [finishU, beginU] at h
    split at h
    · split at h <;> cases h
      exact ⟨rfl, rfl⟩
    · cases h

/-- Derived types that own nothing allocate nothing. -/
theorem plainP_supplied (P : PSpec Ty V X) : SuppliedP (plainP P : POps (St L A R (PBody Ty V)) A Ty X) where
  make _ _ _ _ := Supplied.bind supplied_choose fun _ => supplied_finishU _ _ _ _
  copyCtor _ _ _ _ := Supplied.bind (supplied_readU _ _) fun _ => Supplied.bind supplied_choose fun _ => supplied_finishU _ _ _ _
  moveCtor _ _ _ _ := Supplied.bind (supplied_readU _ _) fun _ => Supplied.bind supplied_choose fun _ => Supplied.bind (writeU_rel supplied_cong _ _) fun _ => supplied_finishU _ _ _ _
  dtor _ _ _ := Supplied.bind (supplied_readU _ _) fun _ => Supplied.bind (readCB_rel supplied_cong _) fun _ => Supplied.bind (Supplied.writeBody _ _) fun _ => supplied_emit _

theorem throws_readU {E : Exn → Prop} (ty : Ty) (p : Addr) : Throws E (readU ty p : M (St L A R (PBody Ty V)) V) := by
  unfold readU
  refine Throws.mono (E := fun _ => False) (Throws.bind (readCB_calm p) fun c => ?_) fun _ h => h.elim
  cases c.u with
  | none => exact Calm.undef _
  | some v => exact ite_calm (Calm.pure _) (Calm.undef _)

theorem throws_writeU {E : Exn → Prop} (p : Addr) (v : V) : Throws E (writeU p v : M (St L A R (PBody Ty V)) Unit) := by
  unfold writeU
  refine Throws.mono (E := fun _ => False) (Throws.bind (readCB_calm p) fun c => ?_) fun _ h => h.elim
  cases c.u with
  | none => exact Calm.undef _
  | some v => exact Calm.writeBody _ _

theorem throws_finishU {E : Exn → Prop} (ty : Ty) (p : Addr) (how : How) {x : Except Exn V} (h : ∀ e, x = .error e → E e) :
    Throws E (finishU ty p how x : M (St L A R (PBody Ty V)) Unit) := by
  intro s e s' he
  cases x
  · cases he; exact h _ rfl
  · simp only [finishU, beginU] at he
    split at he
    · split at he <;> cases he
    · cases he

/-- Exceptions of derived types that own nothing. -/
theorem plainP_throws {E : Exn → Prop} (P : PSpec Ty V X) (h1 : ∀ ty xs n e, P.make ty xs n = .error e → E e) (h2 : ∀ ty v n e, P.copy ty v n = .error e → E e)
    (h3 : ∀ ty v n e, (P.move ty v n).1 = .error e → E e) : ThrowsP E (plainP P : POps (St L A R (PBody Ty V)) A Ty X) where
  make _ _ _ _ := Throws.bind throws_choose fun _ => throws_finishU _ _ _ (h1 _ _ _)
  copyCtor _ _ _ _ := Throws.bind (throws_readU _ _) fun _ => Throws.bind throws_choose fun _ => throws_finishU _ _ _ (h2 _ _ _)
  moveCtor _ _ _ _ := Throws.bind (throws_readU _ _) fun _ => Throws.bind throws_choose fun _ => Throws.bind (throws_writeU _ _) fun _ => throws_finishU _ _ _ (h3 _ _ _)

end
end Verif.Passing
