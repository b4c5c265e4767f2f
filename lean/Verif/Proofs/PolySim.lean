import Verif.Spec.PAbs
import Verif.Proofs.IndirectReach

/-!
Simulation: a `polymorphic` behaves as an `indirect` whose values are pairs of a dynamic type and a value and whose
owned type is not assignable.  `view` (`Verif/Spec/PAbs.lean`) forgets the control blocks.
-/

set_option autoImplicit false
set_option linter.unusedSectionVars false
set_option linter.unusedSimpArgs false

namespace Verif
namespace Polymorphic

section
variable {L A R Ty V X : Type} [DecidableEq L] [DecidableEq R] [DecidableEq Ty]

/-- The member `p_` of every complete control block points to its own object. -/
def Good (s : St L A R (PBody Ty V)) : Prop :=
  ∀ p r c v, s.heap p = some ⟨r, some c⟩ → c.u = some v → c.p = some p

theorem abs_view (s : St L A R (PBody Ty V)) : Indirect.abs (view s) = abs s := by
  funext x
  simp only [Indirect.abs, abs, absWith, view]
  cases s.hs x with
  | none => rfl
  | some h =>
    cases hp : h.p with
    | none => simp [hp]
    | some p => cases hh : s.heap p <;> simp [hp, hh, viewCell, viewBody]

theorem view_upd (s : St L A R (PBody Ty V)) (p : Addr) (c : Option (Cell R (PBody Ty V))) :
    (fun q => (upd s.heap p c q).map viewCell) = upd (view s).heap p (c.map viewCell) := by
  funext q
  simp only [upd, view]
  split <;> rfl

theorem Good.updNone {s : St L A R (PBody Ty V)} (G : Good s) (p : Addr) (r : R) (c : CB Ty V) (h : c.u = none) :
    ∀ q r' c' v, upd s.heap p (some ⟨r, some c⟩) q = some ⟨r', some c'⟩ → c'.u = some v → c'.p = some q := by
  intro q r' c' v hq hu
  simp only [upd] at hq
  split at hq
  · cases hq; rw [h] at hu; cases hu
  · exact G q r' c' v hq hu

/-- Corresponding results. -/
def RSim {α : Type} (r : Res (St L A R (PBody Ty V)) α) (r' : Res (St L A R (Obj (Ty × V))) α) : Prop :=
  match r with
  | .ok a t => Good t ∧ r' = .ok a (view t)
  | .threw e t => Good t ∧ r' = .threw e (view t)
  | .terminated => r' = .terminated
  | .ub _ => ∃ u, r' = .ub u
  | .diverged => r' = .diverged

section
variable {α β : Type} {s : St L A R (PBody Ty V)}

theorem RSim.bind {m : M (St L A R (PBody Ty V)) α} {m' : M (St L A R (Obj (Ty × V))) α}
    {f : α → M (St L A R (PBody Ty V)) β} {f' : α → M (St L A R (Obj (Ty × V))) β}
    {s' : St L A R (Obj (Ty × V))}
    (h : RSim (m s) (m' s')) (hf : ∀ a t, m s = .ok a t → Good t → RSim (f a t) (f' a (view t))) :
    RSim ((m >>= f) s) ((m' >>= f') s') := by
  simp only [M.bind_eq]
  cases hm : m s with
  | ok a t =>
    rw [hm] at h
    obtain ⟨g, h⟩ := h
    rw [h]
    exact hf a t hm g
  | threw e t => rw [hm] at h; obtain ⟨g, h⟩ := h; rw [h]; exact ⟨g, rfl⟩
  | terminated => rw [hm] at h; rw [show m' s' = _ from h]; rfl
  | ub u => rw [hm] at h; obtain ⟨u', h⟩ := h; rw [h]; exact ⟨u', rfl⟩
  | diverged => rw [hm] at h; rw [show m' s' = _ from h]; rfl

theorem RSim.pure (G : Good s) (a : α) : RSim ((pure a : M _ α) s) ((pure a : M _ α) (view s)) := ⟨G, rfl⟩

theorem RSim.noexceptIf {m : M (St L A R (PBody Ty V)) α} {m' : M (St L A R (Obj (Ty × V))) α}
    {s' : St L A R (Obj (Ty × V))} (b : Bool) (h : RSim (m s) (m' s')) :
    RSim (M.noexceptIf b m s) (M.noexceptIf b m' s') := by
  simp only [M.noexceptIf]
  cases hm : m s with
  | threw e t =>
    rw [hm] at h; obtain ⟨g, h⟩ := h; rw [h]
    cases b
    · exact ⟨g, rfl⟩
    · exact rfl
  | ok a t => rw [hm] at h; obtain ⟨g, h⟩ := h; rw [h]; exact ⟨g, rfl⟩
  | terminated => rw [hm] at h; rw [show m' s' = _ from h]; rfl
  | ub u => rw [hm] at h; obtain ⟨u', h⟩ := h; rw [h]; exact ⟨u', rfl⟩
  | diverged => rw [hm] at h; rw [show m' s' = _ from h]; rfl

theorem RSim.onThrow {m : M (St L A R (PBody Ty V)) α} {m' : M (St L A R (Obj (Ty × V))) α}
    {c : M (St L A R (PBody Ty V)) Unit} {c' : M (St L A R (Obj (Ty × V))) Unit}
    {s' : St L A R (Obj (Ty × V))} (h : RSim (m s) (m' s'))
    (hc : ∀ e t, m s = .threw e t → Good t → RSim (c t) (c' (view t))) :
    RSim (M.onThrow m c s) (M.onThrow m' c' s') := by
  simp only [M.onThrow]
  cases hm : m s with
  | threw e t =>
    rw [hm] at h; obtain ⟨g, h⟩ := h; rw [h]
    have := hc e t hm g
    simp only
    cases hct : c t with
    | ok a u => rw [hct] at this; obtain ⟨g', h'⟩ := this; rw [h']; exact ⟨g', rfl⟩
    | threw a u => rw [hct] at this; obtain ⟨g', h'⟩ := this; rw [h']; exact ⟨g', rfl⟩
    | terminated => rw [hct] at this; rw [show c' (view t) = _ from this]; rfl
    | ub u => rw [hct] at this; obtain ⟨u', h'⟩ := this; rw [h']; exact ⟨u', rfl⟩
    | diverged => rw [hct] at this; rw [show c' (view t) = _ from this]; rfl
  | ok a t => rw [hm] at h; obtain ⟨g, h⟩ := h; rw [h]; exact ⟨g, rfl⟩
  | terminated => rw [hm] at h; rw [show m' s' = _ from h]; rfl
  | ub u => rw [hm] at h; obtain ⟨u', h⟩ := h; rw [h]; exact ⟨u', rfl⟩
  | diverged => rw [hm] at h; rw [show m' s' = _ from h]; rfl

theorem getH_sim (G : Good s) (x : L) : RSim (getH x s) (getH x (view s)) := by
  simp only [getH, view]
  cases h : s.hs x
  · exact ⟨_, rfl⟩
  · exact ⟨G, rfl⟩

theorem setP_sim (G : Good s) (x : L) (p : Option Addr) : RSim (setP x p s) (setP x p (view s)) := by
  simp only [setP, view]
  cases h : s.hs x
  · exact ⟨_, rfl⟩
  · exact ⟨G, rfl⟩

theorem setAlloc_sim (G : Good s) (x : L) (a : A) : RSim (setAlloc x a s) (setAlloc x a (view s)) := by
  simp only [setAlloc, view]
  cases h : s.hs x
  · exact ⟨_, rfl⟩
  · exact ⟨G, rfl⟩

theorem emplace_sim (G : Good s) (x : L) (k : Handle A) : RSim (emplace x k s) (emplace x k (view s)) := by
  simp only [emplace, view]
  cases h : s.hs x
  · exact ⟨G, rfl⟩
  · exact ⟨_, rfl⟩

theorem endLife_sim (G : Good s) (x : L) : RSim (endLife x s) (endLife x (view s)) := by
  simp only [endLife, view]
  cases h : s.hs x
  · exact ⟨_, rfl⟩
  · exact ⟨G, rfl⟩

theorem allocate_sim (G : Good s) (r : R) : RSim (allocate r s) (allocate r (view s)) := by
  have hm : memOk (view s) = memOk s := by simp [memOk, view]
  rw [allocate_eq, allocate_eq, hm]
  cases memOk s with
  | false => exact ⟨G, rfl⟩
  | true =>
    refine ⟨?_, ?_⟩
    · intro p r' c v hp hu
      simp only [upd] at hp
      split at hp
      · cases hp
      · exact G p r' c v hp hu
    · simp only [if_true, view, view_upd]; rfl

theorem deallocate_sim (G : Good s) (r : R) (p : Addr) : RSim (deallocate r p s) (deallocate r p (view s)) := by
  simp only [deallocate, view]
  cases h : s.heap p with
  | none => exact ⟨_, rfl⟩
  | some c =>
    have ho : Body.occupied (viewCell c).body = Body.occupied c.body := by
      obtain ⟨a, b⟩ := c
      cases b with
      | none => rfl
      | some b => obtain ⟨ty, p, u⟩ := b; cases u <;> rfl
    simp only [Option.map_some, ho]
    have ha : (viewCell c).arena = c.arena := rfl
    rw [ha]
    by_cases h1 : c.arena ≠ r
    · simp only [h1, ne_eq, not_false_eq_true, if_true]; exact ⟨_, rfl⟩
    · simp only [h1, ne_eq, if_false]
      cases Body.occupied c.body with
      | true => exact ⟨_, rfl⟩
      | false =>
        refine ⟨?_, ?_⟩
        · intro q r' c v hq hu
          simp only [upd, Bool.false_eq_true, if_false] at hq
          split at hq
          · cases hq
          · exact G q r' c v hq hu
        · simp only [Bool.false_eq_true, if_false, view, view_upd]; rfl

variable {P : PSpec Ty V X} {tr : ATraits A R}

/-- The constructor of `U` and the rest of the constructor of the control block. -/
theorem finish_sim (G : Good s) {mem : Addr} {r : R} {ty : Ty} {how : How}
    (hm : s.heap mem = some ⟨r, some ⟨ty, none, none⟩⟩) (v : Except Exn V) :
    RSim ((do M.onThrow (finishU ty mem how v) (abortCB mem); setCBp mem mem : M _ Unit) s)
      (finish mem how (v.map (ty, ·)) (view s)) := by
  have he : (view s).heap mem = some ⟨r, none⟩ := by simp [view, hm, viewCell, viewBody]
  cases v with
  | error e =>
    have h1 : M.onThrow (finishU ty mem how (.error e)) (abortCB mem) s =
        .threw e { s with heap := upd s.heap mem (some ⟨r, none⟩) } := by
      simp [M.onThrow, finishU, abortCB, readCB, readBody, writeBody, M.bind_eq, hm]
    rw [M.bind_threw h1]
    refine ⟨?_, ?_⟩
    · intro p r' c v hp hu
      simp only [upd] at hp
      split at hp
      · cases hp
      · exact G p r' c v hp hu
    · simp only [Except.map, finish, M.throwE_eq]
      congr 1
      simp only [view, view_upd]
      congr 1
      exact (upd_id _ _ _ (by simpa [view, viewCell, viewBody] using he)).symm
  | ok v =>
    have h1 : M.onThrow (finishU ty mem how (.ok v)) (abortCB mem) s =
        .ok () { s with heap := upd s.heap mem (some ⟨r, some ⟨ty, none, some v⟩⟩), trace := s.trace ++ [.construct mem how] } := by
      simp [M.onThrow, finishU, beginU, hm]
    rw [M.bind_ok h1]
    have h2 : setCBp mem mem { s with heap := upd s.heap mem (some ⟨r, some ⟨ty, none, some v⟩⟩), trace := s.trace ++ [.construct mem how] } =
        .ok () { s with heap := upd s.heap mem (some ⟨r, some ⟨ty, some mem, some v⟩⟩), trace := s.trace ++ [.construct mem how] } := by
      simp [setCBp, readCB, readBody, writeBody, M.bind_eq]
    rw [h2]
    refine ⟨?_, ?_⟩
    · intro p r' c v hp hu
      simp only [upd] at hp
      split at hp
      · cases hp; simp_all
      · exact G p r' c v hp hu
    · simp only [Except.map, finish, beginObj, he]
      simp only [view, view_upd]
      rfl

theorem beginCB_eval {mem : Addr} {r : R} (hm : s.heap mem = some ⟨r, none⟩) (ty : Ty) :
    beginCB ty mem s = .ok () { s with heap := upd s.heap mem (some ⟨r, some ⟨ty, none, none⟩⟩) } := by
  simp [beginCB, hm]

theorem view_begin {mem : Addr} {r : R} (hm : s.heap mem = some ⟨r, none⟩) (ty : Ty) :
    view { s with heap := upd s.heap mem (some ⟨r, some ⟨ty, none, none⟩⟩) } = view s := by
  simp only [view, view_upd]
  congr 1
  exact upd_id _ _ _ (by simp [view, hm, viewCell, viewBody])

theorem onThrow_bind {σ α β : Type} (m : M σ α) (f : α → M σ β) (c : M σ Unit) (s s' : σ) (a : α) (h : m s = .ok a s') :
    M.onThrow (m >>= f) c s = M.onThrow (f a) c s' := by
  simp only [M.onThrow, M.bind_ok h]

/-- Construction from arguments. -/
theorem make_sim (b : A) (G : Good s) {mem : Addr} {r : R} (hm : s.heap mem = some ⟨r, none⟩) (ty : Ty) (xs : TArgs X)
    (ys : TArgs (Ty × TArgs X)) (hy : ∀ n, P.owned.make ys n = (P.make ty xs n).map (ty, ·)) :
    RSim (cbCtor ty b mem (fun a m => (plainP P).make ty a m xs) s) ((plain P.owned).make b mem ys (view s)) := by
  unfold cbCtor
  rw [M.bind_ok (beginCB_eval hm ty)]
  simp only [plainP, plain, hy]
  rw [M.bind_eq (m := choose)]
  have := finish_sim (s := { s with heap := upd s.heap mem (some ⟨r, some ⟨ty, none, none⟩⟩), ti := s.ti + 1 })
    (mem := mem) (r := r) (ty := ty) (how := .args) (Good.updNone G _ _ _ rfl) (by simp)
    (P.make ty xs (s.env.choice s.ti))
  have e1 := view_begin hm ty
  have e2 : view { s with heap := upd s.heap mem (some ⟨r, some ⟨ty, none, none⟩⟩), ti := s.ti + 1 } =
      { view s with ti := s.ti + 1 } := by
    rw [← e1]; rfl
  rw [e2] at this
  exact this

/-- Copying from a live object of the right type. -/
theorem copyCtor_sim (b : A) (G : Good s) {mem q : Addr} {r r' : R} {ty : Ty} {pp : Option Addr} {v : V}
    (hm : s.heap mem = some ⟨r, none⟩) (hq : s.heap q = some ⟨r', some ⟨ty, pp, some v⟩⟩) :
    RSim (cbCtor ty b mem (fun a m => (plainP P).copyCtor ty a m q) s) ((plain P.owned).copyCtor b mem q (view s)) := by
  have hne : q ≠ mem := by rintro rfl; rw [hm] at hq; cases hq
  unfold cbCtor
  rw [M.bind_ok (beginCB_eval hm ty)]
  have hq' : (view s).heap q = some ⟨r', some (ty, v)⟩ := by simp [view, hq, viewCell, viewBody]
  have h1 : readU ty q { s with heap := upd s.heap mem (some ⟨r, some ⟨ty, none, none⟩⟩) } =
      .ok v { s with heap := upd s.heap mem (some ⟨r, some ⟨ty, none, none⟩⟩) } := by
    simp [readU, readCB, readBody, M.bind_eq, upd_other _ _ hne, hq]
  have h2 : readObj q (view s) = .ok (ty, v) (view s) := by
    simp [readObj, readBody, M.bind_eq, hq']
  simp only [plainP, plain]
  rw [M.bind_ok h2]
  rw [M.bind_eq, onThrow_bind _ _ _ _ _ _ h1, ← M.bind_eq]
  have := finish_sim (s := { s with heap := upd s.heap mem (some ⟨r, some ⟨ty, none, none⟩⟩), ti := s.ti + 1 })
    (mem := mem) (r := r) (ty := ty) (how := .copyOf q) (Good.updNone G _ _ _ rfl) (by simp)
    (P.copy ty v (s.env.choice s.ti))
  have e1 := view_begin hm ty
  have e2 : view { s with heap := upd s.heap mem (some ⟨r, some ⟨ty, none, none⟩⟩), ti := s.ti + 1 } =
      { view s with ti := s.ti + 1 } := by
    rw [← e1]; rfl
  rw [e2] at this
  exact this

/-- Moving from a live object of the right type. -/
theorem moveCtor_sim (b : A) (G : Good s) {mem q : Addr} {r r' : R} {ty : Ty} {pp : Option Addr} {v : V}
    (hm : s.heap mem = some ⟨r, none⟩) (hq : s.heap q = some ⟨r', some ⟨ty, pp, some v⟩⟩) :
    RSim (cbCtor ty b mem (fun a m => (plainP P).moveCtor ty a m q) s) ((plain P.owned).moveCtor b mem q (view s)) := by
  have hne : q ≠ mem := by rintro rfl; rw [hm] at hq; cases hq
  unfold cbCtor
  rw [M.bind_ok (beginCB_eval hm ty)]
  have hq' : (view s).heap q = some ⟨r', some (ty, v)⟩ := by simp [view, hq, viewCell, viewBody]
  have h1 : readU ty q { s with heap := upd s.heap mem (some ⟨r, some ⟨ty, none, none⟩⟩) } =
      .ok v { s with heap := upd s.heap mem (some ⟨r, some ⟨ty, none, none⟩⟩) } := by
    simp [readU, readCB, readBody, M.bind_eq, upd_other _ _ hne, hq]
  have h2 : readObj q (view s) = .ok (ty, v) (view s) := by
    simp [readObj, readBody, M.bind_eq, hq']
  simp only [plainP, plain]
  rw [M.bind_ok h2]
  rw [M.bind_eq, onThrow_bind _ _ _ _ _ _ h1]
  have h3 : (choose : M (St L A R (PBody Ty V)) Nat) { s with heap := upd s.heap mem (some ⟨r, some ⟨ty, none, none⟩⟩) } =
      .ok (s.env.choice s.ti) { s with heap := upd s.heap mem (some ⟨r, some ⟨ty, none, none⟩⟩), ti := s.ti + 1 } := rfl
  rw [onThrow_bind _ _ _ _ _ _ h3]
  have h3' : (choose : M (St L A R (Obj (Ty × V))) Nat) (view s) =
      .ok (s.env.choice s.ti) { view s with ti := s.ti + 1 } := rfl
  rw [M.bind_ok h3']
  have h4 : ∀ w, writeU q w { s with heap := upd s.heap mem (some ⟨r, some ⟨ty, none, none⟩⟩), ti := s.ti + 1 } =
      .ok () { s with heap := upd (upd s.heap mem (some ⟨r, some ⟨ty, none, none⟩⟩)) q (some ⟨r', some ⟨ty, pp, some w⟩⟩), ti := s.ti + 1 } := by
    intro w
    simp [writeU, readCB, readBody, writeBody, M.bind_eq, upd_other _ _ hne, hq]
  rw [onThrow_bind _ _ _ _ _ _ (h4 _)]
  have h4' : ∀ w, writeObj q w { view s with ti := s.ti + 1 } =
      .ok () { view s with heap := upd (view s).heap q (some ⟨r', some w⟩), ti := s.ti + 1 } := by
    intro w
    simp [writeObj, readObj, readBody, writeBody, M.bind_eq, hq']
  rw [M.bind_ok (h4' _)]
  rw [← M.bind_eq]
  have GG : Good { s with heap := upd (upd s.heap mem (some ⟨r, some ⟨ty, none, none⟩⟩)) q (some ⟨r', some ⟨ty, pp, some (P.move ty v (s.env.choice s.ti)).2⟩⟩), ti := s.ti + 1 } := by
    intro p r1 c w hp hu
    simp only [upd] at hp
    split at hp
    · cases hp; subst_vars; exact G _ _ ⟨ty, pp, some v⟩ v hq rfl
    · split at hp
      · cases hp; cases hu
      · exact G p r1 c w hp hu
  have := finish_sim (mem := mem) (r := r) (ty := ty) (how := .moveOf q) GG (by
      simp [upd_other _ _ (Ne.symm hne)])
    (P.move ty v (s.env.choice s.ti)).1
  have e2 : view { s with heap := upd (upd s.heap mem (some ⟨r, some ⟨ty, none, none⟩⟩)) q (some ⟨r', some ⟨ty, pp, some (P.move ty v (s.env.choice s.ti)).2⟩⟩), ti := s.ti + 1 } =
      { view s with heap := upd (view s).heap q (some ⟨r', some (ty, (P.move ty v (s.env.choice s.ti)).2)⟩), ti := s.ti + 1 } := by
    have e1 := congrArg St.heap (view_begin hm ty)
    simp only [view] at e1
    simp only [view]
    congr 1
    funext z
    simp only [upd]
    split
    · rfl
    · have := congrFun e1 z
      simp only [upd] at this
      exact this
  rw [e2] at this
  exact this

/-- Allocating and constructing. -/
theorem create_sim (G : Good s) {ty : Ty} {a : A} {k : A → Addr → M (St L A R (PBody Ty V)) Unit}
    {k' : A → Addr → M (St L A R (Obj (Ty × V))) Unit}
    (hk : ∀ mem s₁ r, Good s₁ → s₁.heap = upd s.heap mem (some ⟨r, none⟩) → s.heap mem = none →
      RSim (cbCtor ty a mem k s₁) (k' a mem (view s₁))) :
    RSim (createControlBlock tr (plainP P) ty a k s) (Indirect.constructFrom tr a k' (view s)) := by
  unfold createControlBlock Indirect.constructFrom
  refine (allocate_sim G _).bind fun mem s₁ h1 G1 => ?_
  have hh : s₁.heap = upd s.heap mem (some ⟨tr.res a, none⟩) ∧ s.heap mem = none := by
    rw [allocate_eq] at h1
    split at h1
    · rename_i hm
      cases h1
      simp [memOk] at hm
      exact ⟨rfl, hm.2⟩
    · cases h1
  refine (RSim.onThrow (hk mem s₁ _ G1 hh.1 hh.2) fun e t _ G2 => deallocate_sim G2 _ _).bind fun _ t _ G2 => ?_
  exact RSim.pure G2 _

/-- Every pointer member points to a complete control block. -/
def Full (s : St L A R (PBody Ty V)) : Prop :=
  ∀ y h q, s.hs y = some h → h.p = some q → ∃ r ty v, s.heap q = some ⟨r, some ⟨ty, some q, some v⟩⟩

theorem full_of (G : Good s) (I : Indirect.IInv tr (view s)) : Full s := by
  intro y h q hy hq
  obtain ⟨b, hb, g⟩ := I.own y h q hy hq
  obtain ⟨v, rfl⟩ : ∃ v, b = some v := Option.isSome_iff_exists.1 (by simpa using g)
  simp only [view] at hb
  cases hc : s.heap q with
  | none => rw [hc] at hb; cases hb
  | some c =>
    rw [hc] at hb
    obtain ⟨r, b⟩ := c
    cases b with
    | none => cases hb
    | some b =>
      obtain ⟨ty, pp, u⟩ := b
      cases u with
      | none => cases hb
      | some u =>
        have := G q r _ u hc rfl
        simp only at this
        subst this
        exact ⟨r, ty, u, rfl⟩

theorem vclone_sim (G : Good s) {a : A} {q : Addr} {r : R} {ty : Ty} {pp : Option Addr} {v : V}
    (hq : s.heap q = some ⟨r, some ⟨ty, pp, some v⟩⟩) :
    RSim (vclone tr (plainP P) q a s)
      (Indirect.constructFrom tr a (fun a m => (plain P.owned).copyCtor a m q) (view s)) := by
  have h : vclone tr (plainP P) q a s =
      createControlBlock tr (plainP P) ty a (fun a m => (plainP P).copyCtor ty a m q) s := by
    simp [vclone, readCB, readBody, M.bind_eq, hq, clone, createControlBlock]
  rw [h]
  refine create_sim G fun mem s₁ r' G1 h1 h2 => ?_
  have hne : q ≠ mem := by rintro rfl; rw [h2] at hq; cases hq
  exact copyCtor_sim _ G1 (by rw [h1, upd_same]) (by rw [h1, upd_other _ _ hne]; exact hq)

theorem vmove_sim (G : Good s) {a : A} {q : Addr} {r : R} {ty : Ty} {pp : Option Addr} {v : V}
    (hq : s.heap q = some ⟨r, some ⟨ty, pp, some v⟩⟩) :
    RSim (vmove tr (plainP P) q a s)
      (Indirect.constructFrom tr a (fun a m => (plain P.owned).moveCtor a m q) (view s)) := by
  have h : vmove tr (plainP P) q a s =
      createControlBlock tr (plainP P) ty a (fun a m => (plainP P).moveCtor ty a m q) s := by
    simp [vmove, readCB, readBody, M.bind_eq, hq, moveCB, createControlBlock]
  rw [h]
  refine create_sim G fun mem s₁ r' G1 h1 h2 => ?_
  have hne : q ≠ mem := by rintro rfl; rw [h2] at hq; cases hq
  exact moveCtor_sim _ G1 (by rw [h1, upd_same]) (by rw [h1, upd_other _ _ hne]; exact hq)

theorem vdestroy_sim (G : Good s) {a : A} {q : Addr} :
    RSim (vdestroy tr (plainP P) q a s) (Indirect.destroyWith tr (plain P.owned) a q (view s)) := by
  unfold vdestroy Indirect.destroyWith destroyCB
  cases hq : s.heap q with
  | none =>
    have h1 : readCB q s = .ub .deadObject := by simp [readCB, readBody, M.bind_eq, hq]
    have h2 : (plain P.owned).dtor a q (view s) = .ub .deadObject := by
      simp [plain, endObj, readObj, readBody, M.bind_eq, view, hq]
    rw [M.bind_eq, h1, M.bind_eq, h2]
    exact ⟨_, rfl⟩
  | some c =>
    obtain ⟨r, b⟩ := c
    cases b with
    | none =>
      have h1 : readCB q s = .ub .deadObject := by simp [readCB, readBody, M.bind_eq, hq]
      have h2 : (plain P.owned).dtor a q (view s) = .ub .deadObject := by
        simp [plain, endObj, readObj, readBody, M.bind_eq, view, hq, viewCell, viewBody]
      rw [M.bind_eq, h1, M.bind_eq, h2]
      exact ⟨_, rfl⟩
    | some b =>
      obtain ⟨ty, pp, u⟩ := b
      have h1 : readCB q s = .ok ⟨ty, pp, u⟩ s := by simp [readCB, readBody, M.bind_eq, hq]
      rw [M.bind_ok h1]
      refine RSim.bind (m' := (plain P.owned).dtor a q) ?_ fun _ t _ G1 => deallocate_sim G1 _ _
      cases u with
      | none =>
        have h2 : (plain P.owned).dtor a q (view s) = .ub .deadObject := by
          simp [plain, endObj, readObj, readBody, M.bind_eq, view, hq, viewCell, viewBody]
        have h3 : (plainP P).dtor ty a q s = .ub .deadObject := by
          simp [plainP, endU, readU, readCB, readBody, M.bind_eq, hq]
        simp only
        rw [h2, h3]
        exact ⟨_, rfl⟩
      | some u =>
        have h2 : (plain P.owned).dtor a q (view s) =
            .ok () { view s with heap := upd (view s).heap q (some ⟨r, none⟩), trace := s.trace ++ [.destroy q] } := by
          simp [plain, endObj, readObj, readBody, writeBody, emit, M.bind_eq, view, hq, viewCell, viewBody]
        have h3 : (plainP P).dtor ty a q s =
            .ok () { s with heap := upd s.heap q (some ⟨r, some ⟨ty, pp, none⟩⟩), trace := s.trace ++ [.destroy q] } := by
          simp [plainP, endU, readU, readCB, readBody, writeBody, emit, M.bind_eq, hq]
        simp only
        rw [h2, h3]
        refine ⟨Good.updNone G _ _ _ rfl, ?_⟩
        simp only [view, view_upd]
        rfl

theorem reset_sim (G : Good s) (x : L) :
    RSim (reset tr (plainP P) x s) (Indirect.reset tr (plain P.owned) x (view s)) := by
  unfold reset Indirect.reset
  refine RSim.noexceptIf _ ((getH_sim G x).bind fun h t _ G1 => ?_)
  cases h.p with
  | none => exact RSim.pure G1 _
  | some q => exact (vdestroy_sim G1).bind fun _ u _ G2 => setP_sim G2 _ _

theorem getH_inv {x : L} {h : Handle A} {t : St L A R (PBody Ty V)} (e : getH x s = .ok h t) : t = s ∧ s.hs x = some h := by
  unfold getH at e
  cases hx : s.hs x with
  | none => rw [hx] at e; cases e
  | some k => rw [hx] at e; cases e; exact ⟨rfl, rfl⟩

theorem valueless_sim (G : Good s) (x : L) : RSim (valueless x s) (Indirect.valueless x (view s)) :=
  (getH_sim G x).bind fun _ _ _ G1 => RSim.pure G1 _

theorem valueless_inv {x : L} {b : Bool} {t : St L A R (PBody Ty V)} (e : valueless x s = .ok b t) :
    t = s ∧ ∃ h, s.hs x = some h ∧ b = (h.p == none) := by
  unfold valueless at e
  rw [M.bind_eq] at e
  cases hx : s.hs x with
  | none => simp [getH, hx] at e
  | some k => simp only [getH, hx, M.pure_eq, Res.ok.injEq] at e; exact ⟨e.2.symm, k, rfl, e.1.symm⟩

theorem derefCB_sim (G : Good s) (x : L) : RSim (derefCB x s) (Indirect.deref x (view s)) := by
  unfold derefCB Indirect.deref
  refine (getH_sim G x).bind fun h t _ G1 => ?_
  cases h.p with
  | none => exact ⟨_, rfl⟩
  | some q => exact RSim.pure G1 _

theorem derefCB_inv {x : L} {q : Addr} {t : St L A R (PBody Ty V)} (e : derefCB x s = .ok q t) :
    t = s ∧ ∃ h, s.hs x = some h ∧ h.p = some q := by
  unfold derefCB at e
  rw [M.bind_eq] at e
  cases hx : s.hs x with
  | none => simp [getH, hx] at e
  | some k =>
    simp only [getH, hx] at e
    cases hp : k.p with
    | none => rw [hp] at e; cases e
    | some p => rw [hp] at e; cases e; exact ⟨rfl, k, rfl, hp⟩

/-- `operator*` finds the owned object. -/
theorem deref_eq (F : Full s) (x : L) : deref x s = derefCB x s := by
  unfold deref
  cases h : derefCB x s with
  | ok q t =>
    obtain ⟨rfl, k, hk, hp⟩ := derefCB_inv h
    obtain ⟨r, ty, v, hq⟩ := F x k q hk hp
    rw [M.bind_ok h]
    simp [readCB, readBody, M.bind_eq, hq]
  | _ => rw [M.bind_eq, h]

theorem deref_sim (G : Good s) (F : Full s) (x : L) : RSim (deref x s) (Indirect.deref x (view s)) := by
  rw [deref_eq F]; exact derefCB_sim G x

theorem arrow_sim (G : Good s) (F : Full s) (x : L) : RSim (arrow x s) (Indirect.arrow x (view s)) :=
  deref_sim G F x

theorem readAny_eq (q : Addr) : readAny q s =
    match s.heap q with
    | some ⟨_, some ⟨ty, _, some v⟩⟩ => .ok (ty, v) s
    | _ => .ub .deadObject := by
  cases hq : s.heap q with
  | none => simp [readAny, readCB, readBody, M.bind_eq, hq]
  | some c =>
    obtain ⟨r, b⟩ := c
    cases b with
    | none => simp [readAny, readCB, readBody, M.bind_eq, hq]
    | some b =>
      obtain ⟨ty, pp, u⟩ := b
      cases u <;> simp [readAny, readCB, readBody, M.bind_eq, hq]

theorem readObj_eq (t : St L A R (Obj (Ty × V))) (q : Addr) : readObj q t =
    match t.heap q with
    | some ⟨_, some v⟩ => .ok v t
    | _ => .ub .deadObject := by
  cases hq : t.heap q with
  | none => simp [readObj, readBody, M.bind_eq, hq]
  | some c =>
    obtain ⟨r, b⟩ := c
    cases b <;> simp [readObj, readBody, M.bind_eq, hq]

theorem readAny_sim (G : Good s) (q : Addr) : RSim (readAny q s) (readObj q (view s)) := by
  rw [readAny_eq, readObj_eq]
  simp only [view]
  cases hq : s.heap q with
  | none => exact ⟨_, rfl⟩
  | some c =>
    obtain ⟨r, b⟩ := c
    cases b with
    | none => exact ⟨_, rfl⟩
    | some b =>
      obtain ⟨ty, pp, u⟩ := b
      cases u with
      | none => exact ⟨_, rfl⟩
      | some u => exact ⟨G, rfl⟩

theorem readAny_inv {q : Addr} {v : Ty × V} {t : St L A R (PBody Ty V)} (e : readAny q s = .ok v t) :
    t = s ∧ ∃ r pp, s.heap q = some ⟨r, some ⟨v.1, pp, some v.2⟩⟩ := by
  rw [readAny_eq] at e
  cases hq : s.heap q with
  | none => rw [hq] at e; cases e
  | some c =>
    rw [hq] at e
    obtain ⟨r, b⟩ := c
    cases b with
    | none => cases e
    | some b =>
      obtain ⟨ty, pp, u⟩ := b
      cases u with
      | none => cases e
      | some u => cases e; exact ⟨rfl, r, pp, rfl⟩

theorem writeU_sim (G : Good s) {q : Addr} {r : R} {ty : Ty} {pp : Option Addr} {v w : V}
    (hq : s.heap q = some ⟨r, some ⟨ty, pp, some v⟩⟩) :
    RSim (writeU q w s) (writeObj q (ty, w) (view s)) := by
  have h1 : writeU q w s = .ok () { s with heap := upd s.heap q (some ⟨r, some ⟨ty, pp, some w⟩⟩) } := by
    simp [writeU, readCB, readBody, writeBody, M.bind_eq, hq]
  have h2 : writeObj q (ty, w) (view s) =
      .ok () { view s with heap := upd (view s).heap q (some ⟨r, some (ty, w)⟩) } := by
    simp [writeObj, readObj, readBody, writeBody, M.bind_eq, view, hq, viewCell, viewBody]
  rw [h1, h2]
  refine ⟨?_, ?_⟩
  · intro p r1 c z hp hu
    simp only [upd] at hp
    split at hp
    · cases hp; subst_vars; exact G _ _ ⟨ty, pp, some v⟩ v hq rfl
    · exact G p r1 c z hp hu
  · simp only [view, view_upd]
    rfl

theorem ctorCopyA_sim (G : Good s) (F : Full s) (a : A) (y : L) :
    RSim (ctorCopyA tr (plainP P) a y s) (Indirect.ctorCopyA tr (plain P.owned) a y (view s)) := by
  unfold ctorCopyA Indirect.ctorCopyA
  refine (valueless_sim G y).bind fun b t hb G1 => ?_
  obtain ⟨rfl, -⟩ := valueless_inv hb
  cases b with
  | true => exact RSim.pure G1 _
  | false =>
    refine (derefCB_sim G1 y).bind fun q t hq G2 => ?_
    obtain ⟨rfl, k, hk, hp⟩ := derefCB_inv hq
    obtain ⟨r, ty, v, hh⟩ := F y k q hk hp
    exact (vclone_sim G2 hh).bind fun p t _ G3 => RSim.pure G3 _

theorem ctorCopy_sim (G : Good s) (F : Full s) (y : L) :
    RSim (ctorCopy tr (plainP P) y s) (Indirect.ctorCopy tr (plain P.owned) y (view s)) := by
  unfold ctorCopy Indirect.ctorCopy
  refine (getH_sim G y).bind fun o t ho G1 => ?_
  obtain ⟨rfl, -⟩ := getH_inv ho
  exact ctorCopyA_sim G1 F _ _

theorem ctorMoveA_sim (G : Good s) (F : Full s) (a : A) (y : L) :
    RSim (ctorMoveA tr (plainP P) a y s) (Indirect.ctorMoveA tr (plain P.owned) a y (view s)) := by
  unfold ctorMoveA Indirect.ctorMoveA
  refine RSim.noexceptIf _ ((getH_sim G y).bind fun o t ho G1 => ?_)
  obtain ⟨rfl, -⟩ := getH_inv ho
  cases tr.alwaysEqual with
  | true => exact (setP_sim G1 _ _).bind fun _ t _ G2 => RSim.pure G2 _
  | false =>
    cases tr.eq a o.alloc with
    | true => exact (setP_sim G1 _ _).bind fun _ t _ G2 => RSim.pure G2 _
    | false =>
      simp only [Bool.false_eq_true, if_false]
      refine (valueless_sim G1 y).bind fun b t hb G1 => ?_
      obtain ⟨rfl, -⟩ := valueless_inv hb
      cases b with
      | true => exact RSim.pure G1 _
      | false =>
        refine (derefCB_sim G1 y).bind fun q t hq G2 => ?_
        obtain ⟨rfl, k, hk, hp⟩ := derefCB_inv hq
        obtain ⟨r, ty, v, hh⟩ := F y k q hk hp
        exact (vmove_sim G2 hh).bind fun p t _ G3 => RSim.pure G3 _

theorem ctorMove_sim (G : Good s) (F : Full s) (y : L) :
    RSim (ctorMove tr (plainP P) y s) (Indirect.ctorMove tr (plain P.owned) y (view s)) := by
  unfold ctorMove Indirect.ctorMove
  refine RSim.noexceptIf _ ((getH_sim G y).bind fun o t ho G1 => ?_)
  obtain ⟨rfl, -⟩ := getH_inv ho
  exact ctorMoveA_sim G1 F _ _

theorem dtor_sim (G : Good s) (x : L) :
    RSim (dtor tr (plainP P) x s) (Indirect.dtor tr (plain P.owned) x (view s)) := by
  unfold dtor Indirect.dtor
  exact RSim.noexceptIf _ ((reset_sim G x).bind fun _ t _ G1 => endLife_sim G1 _)

theorem updAlloc_sim (G : Good s) (b : Bool) (x y : L) :
    RSim ((do
        if b then
          let o ← getH y
          setAlloc x o.alloc
        pure x : M _ L) s)
      ((do
        if b then
          let o ← getH y
          setAlloc x o.alloc
        pure x : M _ L) (view s)) := by
  cases b with
  | true =>
    refine (getH_sim G y).bind fun o t _ G1 => ?_
    exact (setAlloc_sim G1 _ _).bind fun _ t _ G1 => RSim.pure G1 _
  | false => exact RSim.pure G _

theorem assignCopy_sim (G : Good s) (F : Full s) (x y : L) :
    RSim (assignCopy tr (plainP P) x y s) (Indirect.assignCopy tr (plain P.owned) x y (view s)) := by
  unfold assignCopy Indirect.assignCopy
  by_cases hxy : x = y
  · simp only [hxy, if_true]; exact RSim.pure G _
  · simp only [hxy, if_false]
    refine (valueless_sim G y).bind fun b t hb G1 => ?_
    obtain ⟨rfl, o, ho, hb'⟩ := valueless_inv hb
    cases b with
    | true => exact (reset_sim G1 x).bind fun _ t _ G2 => updAlloc_sim G2 _ _ _
    | false =>
      have hT : (plain P.owned : TOps (St L A R (Obj (Ty × V))) A _).assignable = false := rfl
      simp only [Bool.false_eq_true, if_false, hT, Bool.false_and]
      have hp : ∃ q, o.p = some q := by
        cases hq : o.p with
        | none => rw [hq] at hb'; cases hb'
        | some q => exact ⟨q, rfl⟩
      obtain ⟨q, hp⟩ := hp
      obtain ⟨r, ty, v, hh⟩ := F y o q ho hp
      have hd : derefCB y t = .ok q t := by simp [derefCB, M.bind_eq, getH, ho, hp]
      have hd' : Indirect.deref y (view t) = .ok q (view t) := by
        simp [Indirect.deref, M.bind_eq, getH, view, ho, hp]
      rw [M.bind_ok hd]
      refine (getH_sim G1 x).bind fun t' t ht G2 => ?_
      obtain ⟨rfl, -⟩ := getH_inv ht
      refine (getH_sim G2 y).bind fun o' t ho' G2 => ?_
      obtain ⟨rfl, -⟩ := getH_inv ho'
      rw [M.bind_ok hd']
      refine (vclone_sim G2 hh).bind fun _ _ _ G3 => ?_
      refine (reset_sim G3 x).bind fun _ t _ G2 => ?_
      exact (setP_sim G2 _ _).bind fun _ _ _ G3 => updAlloc_sim G3 _ _ _

theorem assignMove_sim (G : Good s) (F : Full s) (x y : L) :
    RSim (assignMove tr (plainP P) x y s) (Indirect.assignMove tr (plain P.owned) x y (view s)) := by
  unfold assignMove Indirect.assignMove
  refine RSim.noexceptIf _ ?_
  by_cases hxy : x = y
  · simp only [hxy, if_true]; exact RSim.pure G _
  · simp only [hxy, if_false]
    refine (valueless_sim G y).bind fun b t hb G1 => ?_
    obtain ⟨rfl, -⟩ := valueless_inv hb
    cases b with
    | true => exact (reset_sim G1 x).bind fun _ t _ G2 => updAlloc_sim G2 _ _ _
    | false =>
      simp only [Bool.false_eq_true, if_false]
      refine (getH_sim G1 x).bind fun t' t ht G2 => ?_
      obtain ⟨rfl, -⟩ := getH_inv ht
      refine (getH_sim G2 y).bind fun o t ho G2 => ?_
      obtain ⟨rfl, -⟩ := getH_inv ho
      cases tr.eq t'.alloc o.alloc with
      | true =>
        refine (setP_sim G2 _ _).bind fun _ _ _ G3 => ?_
        refine (setP_sim G3 _ _).bind fun _ _ _ G3 => ?_
        exact (reset_sim G3 y).bind fun _ t _ G2 => updAlloc_sim G2 _ _ _
      | false =>
        refine (derefCB_sim G2 y).bind fun q t hq G2 => ?_
        obtain ⟨rfl, k, hk, hp⟩ := derefCB_inv hq
        obtain ⟨r, ty, v, hh⟩ := F y k q hk hp
        refine (vmove_sim G2 hh).bind fun _ _ _ G3 => ?_
        refine (reset_sim G3 x).bind fun _ t _ G2 => ?_
        exact (setP_sim G2 _ _).bind fun _ _ _ G3 => updAlloc_sim G3 _ _ _

theorem swap_sim (G : Good s) (x y : L) :
    RSim (swap tr x y s) (Indirect.swap tr x y (view s)) := by
  unfold swap Indirect.swap
  refine RSim.noexceptIf _ ?_
  refine (getH_sim G x).bind fun t _ _ G => ?_
  refine (getH_sim G y).bind fun o _ _ G => ?_
  cases tr.pocs with
  | true =>
    refine (setAlloc_sim G _ _).bind fun _ _ _ G => ?_
    refine (setAlloc_sim G _ _).bind fun _ _ _ G => ?_
    refine (setP_sim G _ _).bind fun _ _ _ G => ?_
    exact setP_sim G _ _
  | false =>
    cases tr.eq t.alloc o.alloc with
    | true =>
      refine (setP_sim G _ _).bind fun _ _ _ G => ?_
      exact setP_sim G _ _
    | false => exact ⟨_, rfl⟩

theorem friendSwap_sim (G : Good s) (x y : L) :
    RSim (friendSwap tr x y s) (Indirect.friendSwap tr x y (view s)) :=
  RSim.noexceptIf _ (swap_sim G x y)

end
end

/-- The corresponding call on `indirect` objects. -/
def toCtor {L Ty X : Type} : PCtor L Ty X → Ctor L (Ty × TArgs X)
  | .default => .default
  | .from ty (.arg x) => .from (.arg (ty, .pack [x]))
  | .from _ (.lval y) => .from (.lval y)
  | .from _ (.rval y) => .from (.rval y)
  | .inPlace ty us => .from (.arg (ty, .pack us))
  | .ilist ty l us => .from (.arg (ty, .ilist l us))

/-- The corresponding call on `indirect` objects. -/
def toOp {L A Ty V X : Type} : POp L A Ty V X → Op L A (Ty × V) (Ty × TArgs X)
  | .make x a c => .make x a (toCtor c)
  | .copy x y => .copy x y
  | .copyA x a y => .copyA x a y
  | .move x y => .move x y
  | .moveA x a y => .moveA x a y
  | .destroy x => .destroy x
  | .assignCopy x y => .assignCopy x y
  | .assignMove x y => .assignMove x y
  | .deref x => .deref x
  | .arrow x => .arrow x
  | .modify x f => .modify x (fun v => (v.1, f v.1 v.2))
  | .valueless x => .valueless x
  | .getAllocator x => .getAllocator x
  | .swap x y => .swap x y
  | .friendSwap x y => .friendSwap x y

section
variable {L A R Ty V X : Type} [DecidableEq L] [DecidableEq R] [DecidableEq Ty]
variable {P : PSpec Ty V X} {tr : ATraits A R} {s : St L A R (PBody Ty V)}

theorem legal_toOp {σ : Spec.Boxes L A (Ty × V)} {o : POp L A Ty V X} (h : Spec.PLegal tr σ o) :
    Spec.Legal tr σ (toOp o) := by
  cases o with
  | make x a c =>
    refine ⟨h.1, ?_⟩
    have h2 := h.2
    cases c with
    | «from» ty u =>
      cases u with
      | arg x => trivial
      | lval y => obtain ⟨v, hv⟩ := h2; exact ⟨_, hv⟩
      | rval y => obtain ⟨v, hv⟩ := h2; exact ⟨_, hv⟩
    | _ => trivial
  | _ => exact h

theorem step_toOp (mem : Bool) (n : Nat) (σ : Spec.Boxes L A (Ty × V)) (o : POp L A Ty V X) :
    Spec.step tr P.owned mem n σ (toOp o) = Spec.pstep tr P mem n σ o := by
  cases o with
  | make x a c =>
    cases c with
    | «from» ty u => cases u <;> rfl
    | _ => rfl
  | copy x y => simp only [toOp, Spec.step, Spec.pstep]; cases σ y <;> rfl
  | move x y => simp only [toOp, Spec.step, Spec.pstep]; cases σ y <;> rfl
  | deref x => simp only [toOp, Spec.step, Spec.pstep]; cases Spec.valueOf σ x <;> rfl
  | arrow x => simp only [toOp, Spec.step, Spec.pstep]; cases Spec.valueOf σ x <;> rfl
  | modify x f => simp only [toOp, Spec.step, Spec.pstep]; cases Spec.valueOf σ x <;> rfl
  | valueless x => simp only [toOp, Spec.step, Spec.pstep]; cases σ x <;> rfl
  | getAllocator x => simp only [toOp, Spec.step, Spec.pstep]; cases σ x <;> rfl
  | _ => rfl

theorem valueOf_inv {y : L} {ty : Ty} {v : V} (h : Spec.valueOf (abs s) y = some (ty, v)) :
    ∃ k q r pp, s.hs y = some k ∧ k.p = some q ∧ s.heap q = some ⟨r, some ⟨ty, pp, some v⟩⟩ := by
  simp only [Spec.valueOf, abs, absWith] at h
  cases hy : s.hs y with
  | none => rw [hy] at h; cases h
  | some k =>
    rw [hy] at h
    cases hp : k.p with
    | none => simp [hp] at h
    | some q =>
      simp only [hp, Option.map_some, Option.bind_some] at h
      cases hq : s.heap q with
      | none => simp [hq] at h
      | some c =>
        obtain ⟨r, b⟩ := c
        rw [hq] at h
        cases b with
        | none => cases h
        | some b =>
          obtain ⟨ty', pp, u⟩ := b
          cases u with
          | none => cases h
          | some u => cases h; exact ⟨k, q, r, pp, rfl, hp, hq⟩

theorem create_make_sim (G : Good s) (a : A) (ty : Ty) (xs : TArgs X) (ys : TArgs (Ty × TArgs X))
    (hy : ∀ n, P.owned.make ys n = (P.make ty xs n).map (ty, ·)) :
    RSim (createControlBlock tr (plainP P) ty a (fun a m => (plainP P).make ty a m xs) s)
      (Indirect.constructFrom tr a (fun a m => (plain P.owned).make a m ys) (view s)) :=
  create_sim G fun mem s₁ r G1 h1 _ => make_sim _ G1 (by rw [h1, upd_same]) ty xs ys hy

theorem construct_sim (G : Good s) (F : Full s) (a : Option A) (c : PCtor L Ty X) (h : Spec.PLegalCtor (abs s) c) :
    RSim (construct tr (plainP P) a c s) (Indirect.construct tr (plain P.owned) a (toCtor c) (view s)) := by
  have h0 : ∀ a : A, RSim (ctorDefaultA tr (plainP P) a s) (Indirect.ctorDefaultA tr (plain P.owned) a (view s)) := by
    intro a
    exact (create_make_sim G _ _ _ _ fun n => rfl).bind fun _ _ _ G1 => RSim.pure G1 _
  have hA : ∀ (a : A) (ty : Ty) (xs : TArgs X),
      RSim ((do let q ← createControlBlock tr (plainP P) ty a (fun a m => (plainP P).make ty a m xs); pure ⟨some q, a⟩ : M _ (Handle A)) s)
        (Indirect.ctorFromA tr (plain P.owned) a (.arg (ty, xs)) (view s)) := by
    intro a ty xs
    exact (create_make_sim G _ _ _ _ fun n => rfl).bind fun _ _ _ G1 => RSim.pure G1 _
  have hL : ∀ (a : A) (ty : Ty) (y : L), Spec.PLegalSrc (X := X) (abs s) ty (.lval y) →
      RSim ((do let u ← evalSrc (.lval y); ctorFromA tr (plainP P) a ty u : M _ (Handle A)) s)
        ((do let u ← Indirect.evalSrc (.lval y); Indirect.ctorFromA tr (plain P.owned) a u : M _ (Handle A)) (view s)) := by
    intro a ty y hy
    obtain ⟨v, hv⟩ := hy
    obtain ⟨k, q, r, pp, hk, hp, hq⟩ := valueOf_inv hv
    have hd : deref y s = .ok q s := by
      rw [deref_eq F]; simp [derefCB, M.bind_eq, getH, hk, hp]
    have hd' : Indirect.deref y (view s) = .ok q (view s) := by
      simp [Indirect.deref, M.bind_eq, getH, view, hk, hp]
    have he : evalSrc (X := X) (.lval y) s = .ok (.lval q) s := by
      simp only [evalSrc]; rw [M.bind_ok hd]; rfl
    have he' : Indirect.evalSrc (X := Ty × TArgs X) (.lval y) (view s) = .ok (.lval q) (view s) := by
      simp only [Indirect.evalSrc]; rw [M.bind_ok hd']; rfl
    rw [M.bind_ok he, M.bind_ok he']
    refine RSim.bind (m' := Indirect.constructFrom tr a (fun a m => (plain P.owned).copyCtor a m q)) ?_
      fun _ _ _ G1 => RSim.pure G1 _
    refine create_sim G fun mem s₁ r' G1 h1 h2 => ?_
    have hne : q ≠ mem := by rintro rfl; rw [h2] at hq; cases hq
    exact copyCtor_sim _ G1 (by rw [h1, upd_same]) (by rw [h1, upd_other _ _ hne]; exact hq)
  have hR : ∀ (a : A) (ty : Ty) (y : L), Spec.PLegalSrc (X := X) (abs s) ty (.rval y) →
      RSim ((do let u ← evalSrc (.rval y); ctorFromA tr (plainP P) a ty u : M _ (Handle A)) s)
        ((do let u ← Indirect.evalSrc (.rval y); Indirect.ctorFromA tr (plain P.owned) a u : M _ (Handle A)) (view s)) := by
    intro a ty y hy
    obtain ⟨v, hv⟩ := hy
    obtain ⟨k, q, r, pp, hk, hp, hq⟩ := valueOf_inv hv
    have hd : deref y s = .ok q s := by
      rw [deref_eq F]; simp [derefCB, M.bind_eq, getH, hk, hp]
    have hd' : Indirect.deref y (view s) = .ok q (view s) := by
      simp [Indirect.deref, M.bind_eq, getH, view, hk, hp]
    have he : evalSrc (X := X) (.rval y) s = .ok (.rval q) s := by
      simp only [evalSrc]; rw [M.bind_ok hd]; rfl
    have he' : Indirect.evalSrc (X := Ty × TArgs X) (.rval y) (view s) = .ok (.rval q) (view s) := by
      simp only [Indirect.evalSrc]; rw [M.bind_ok hd']; rfl
    rw [M.bind_ok he, M.bind_ok he']
    refine RSim.bind (m' := Indirect.constructFrom tr a (fun a m => (plain P.owned).moveCtor a m q)) ?_
      fun _ _ _ G1 => RSim.pure G1 _
    refine create_sim G fun mem s₁ r' G1 h1 h2 => ?_
    have hne : q ≠ mem := by rintro rfl; rw [h2] at hq; cases hq
    exact moveCtor_sim _ G1 (by rw [h1, upd_same]) (by rw [h1, upd_other _ _ hne]; exact hq)
  cases c with
  | default => cases a <;> exact h0 _
  | inPlace ty us => cases a <;> exact hA _ _ _
  | ilist ty l us => cases a <;> exact hA _ _ _
  | «from» ty u =>
    cases u with
    | arg x => cases a <;> exact hA _ _ _
    | lval y => cases a <;> exact hL _ _ _ h
    | rval y => cases a <;> exact hR _ _ _ h

theorem step_sim (G : Good s) (F : Full s) (o : POp L A Ty V X) (h : Spec.PLegal tr (abs s) o) :
    RSim (step tr (plainP P) o s) (Indirect.step tr (plain P.owned) (toOp o) (view s)) := by
  cases o with
  | make x a c =>
    refine (construct_sim G F a c h.2).bind fun k _ _ G1 => ?_
    exact (emplace_sim G1 _ _).bind fun _ _ _ G2 => RSim.pure G2 _
  | copy x y =>
    refine (ctorCopy_sim G F y).bind fun k _ _ G1 => ?_
    exact (emplace_sim G1 _ _).bind fun _ _ _ G2 => RSim.pure G2 _
  | copyA x a y =>
    refine (ctorCopyA_sim G F a y).bind fun k _ _ G1 => ?_
    exact (emplace_sim G1 _ _).bind fun _ _ _ G2 => RSim.pure G2 _
  | move x y =>
    refine (ctorMove_sim G F y).bind fun k _ _ G1 => ?_
    exact (emplace_sim G1 _ _).bind fun _ _ _ G2 => RSim.pure G2 _
  | moveA x a y =>
    refine (ctorMoveA_sim G F a y).bind fun k _ _ G1 => ?_
    exact (emplace_sim G1 _ _).bind fun _ _ _ G2 => RSim.pure G2 _
  | destroy x => exact (dtor_sim G x).bind fun _ _ _ G2 => RSim.pure G2 _
  | assignCopy x y => exact (assignCopy_sim G F x y).bind fun _ _ _ G2 => RSim.pure G2 _
  | assignMove x y => exact (assignMove_sim G F x y).bind fun _ _ _ G2 => RSim.pure G2 _
  | deref x =>
    refine (deref_sim G F x).bind fun _ _ _ G1 => ?_
    exact (readAny_sim G1 _).bind fun _ _ _ G2 => RSim.pure G2 _
  | arrow x =>
    refine (arrow_sim G F x).bind fun _ _ _ G1 => ?_
    exact (readAny_sim G1 _).bind fun _ _ _ G2 => RSim.pure G2 _
  | modify x f =>
    refine (deref_sim G F x).bind fun q t _ G1 => ?_
    refine (readAny_sim G1 _).bind fun v t hv G2 => ?_
    obtain ⟨rfl, r, pp, hq⟩ := readAny_inv hv
    exact (writeU_sim G2 hq).bind fun _ _ _ G2 => RSim.pure G2 _
  | valueless x => exact (valueless_sim G x).bind fun _ _ _ G2 => RSim.pure G2 _
  | getAllocator x =>
    refine RSim.bind ?_ fun _ _ _ G2 => RSim.pure G2 _
    exact (getH_sim G x).bind fun _ _ _ G2 => RSim.pure G2 _
  | swap x y => exact (swap_sim G x y).bind fun _ _ _ G2 => RSim.pure G2 _
  | friendSwap x y => exact (friendSwap_sim G x y).bind fun _ _ _ G2 => RSim.pure G2 _

/-- A legal call on `polymorphic` objects does what the corresponding call on `indirect` objects does. -/
theorem call_sim (G : Good s) (I : Indirect.IInv tr (view s)) (o : POp L A Ty V X) (e : Env)
    (h : Spec.PLegal tr (abs s) o) :
    RSim (call tr (plainP P) o e s) (Indirect.call tr (plain P.owned) (toOp o) e (view s)) :=
  step_sim (s := s.enter e) G (full_of (s := s.enter e) G I) o h

end
end Polymorphic
end Verif
