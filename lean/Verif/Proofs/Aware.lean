import Verif.Spec.Aware
import Verif.Proofs.Indirect14
import Verif.Proofs.Polymorphic14
import Verif.Proofs.ConcurrentApi

/-! Owned types that use the allocator: a call makes at most one object, with the allocator that the target has afterwards. -/

set_option autoImplicit false
set_option linter.unusedSectionVars false
set_option linter.unusedSimpArgs false

namespace Verif

namespace M
variable {σ α β : Type}

theorem noexcept_congr {b : Bool} {m n : M σ α} {s : σ} (h : m s = n s) : M.noexceptIf b m s = M.noexceptIf b n s := by
  unfold M.noexceptIf; rw [h]

theorem bind_congr {m m' : M σ α} {f : α → M σ β} {s : σ} (h : m s = m' s) : (m >>= f) s = (m' >>= f) s := by
  rw [M.bind_eq, M.bind_eq, h]

end M

namespace Spec
section
variable {L A R V X Ty : Type} [DecidableEq L] {tr : ATraits A R} {σ : Boxes L A V}

theorem home_make (x : L) (a : Option A) (c : Ctor L X) : home tr σ (.make x a c) = a.getD tr.dflt := by
  simp [home, allocAfter, target, give]
theorem home_copyA (x y : L) (a : A) : home tr σ (.copyA x a y : Op L A V X) = a := by
  simp [home, allocAfter, target, give]
theorem home_moveA (x y : L) (a : A) : home tr σ (.moveA x a y : Op L A V X) = a := by
  simp [home, allocAfter, target, give]
theorem home_copy {x y : L} {b : Box A V} (h : σ y = some b) : home tr σ (.copy x y : Op L A V X) = tr.socc b.alloc := by
  simp [home, allocAfter, target, give, allocOf, h]
theorem home_move {x y : L} {b : Box A V} (h : σ y = some b) : home tr σ (.move x y : Op L A V X) = b.alloc := by
  simp [home, allocAfter, target, give, allocOf, h]
theorem home_assignCopy {x y : L} {b c : Box A V} (h : σ x = some b) (h' : σ y = some c) :
    home tr σ (.assignCopy x y : Op L A V X) = if tr.pocca then c.alloc else b.alloc := by
  cases hp : tr.pocca <;> simp [home, allocAfter, target, give, allocOf, h, h', hp]
theorem home_assignMove {x y : L} {b c : Box A V} (h : σ x = some b) (h' : σ y = some c) :
    home tr σ (.assignMove x y : Op L A V X) = if tr.pocma then c.alloc else b.alloc := by
  cases hp : tr.pocma <;> simp [home, allocAfter, target, give, allocOf, h, h', hp]
theorem home_assignFrom {x : L} {u : Src L X} {b : Box A V} (h : σ x = some b) :
    home tr σ (.assignFrom x u : Op L A V X) = b.alloc := by
  simp [home, allocAfter, target, give, allocOf, h]

end
end Spec

namespace Indirect
section
variable {L A R V X : Type} [DecidableEq L] [DecidableEq R] (tr : ATraits A R) (T : AwareSpec A V X)

theorem getH_some {x : L} {s : St L A R (Obj V)} {k : Handle A} (h : s.hs x = some k) : getH x s = .ok k s := by
  unfold getH; rw [h]

theorem valueless_some {x : L} {s : St L A R (Obj V)} {k : Handle A} (h : s.hs x = some k) :
    valueless x s = .ok (k.p == none) s := by
  unfold valueless; rw [M.bind_ok (getH_some h)]; rfl

theorem aware_assignCopy (x y : L) (s : St L A R (Obj V)) (kx ky : Handle A) (hx : s.hs x = some kx) (hy : s.hs y = some ky) :
    assignCopy tr (aware T) x y s = assignCopy tr (plain (T.at (if tr.pocca then ky.alloc else kx.alloc))) x y s := by
  unfold assignCopy
  by_cases e : x = y
  · simp only [e, if_true]
  · rw [if_neg e, if_neg e]
    dsimp only
    rw [M.bind_ok (valueless_some hy), M.bind_ok (valueless_some hy)]
    cases ky.p == none with
    | true => rfl
    | false =>
      simp only [Bool.false_eq_true, if_false]
      rw [M.bind_ok (getH_some hx), M.bind_ok (getH_some hx), M.bind_ok (getH_some hy), M.bind_ok (getH_some hy)]
      rfl

theorem aware_assignMove (x y : L) (s : St L A R (Obj V)) (kx ky : Handle A) (hx : s.hs x = some kx) (hy : s.hs y = some ky) :
    assignMove tr (aware T) x y s = assignMove tr (plain (T.at (if tr.pocma then ky.alloc else kx.alloc))) x y s := by
  unfold assignMove
  refine M.noexcept_congr ?_
  by_cases e : x = y
  · simp only [e, if_true]
  · rw [if_neg e, if_neg e]
    dsimp only
    rw [M.bind_ok (valueless_some hy), M.bind_ok (valueless_some hy)]
    cases ky.p == none with
    | true => simp only [if_true]; rfl
    | false =>
      simp only [Bool.false_eq_true, if_false]
      rw [M.bind_ok (getH_some hx), M.bind_ok (getH_some hx), M.bind_ok (getH_some hy), M.bind_ok (getH_some hy)]
      cases tr.eq kx.alloc ky.alloc with
      | true => simp only [if_true]; rfl
      | false => simp only [Bool.false_eq_true, if_false]; rfl

theorem aware_ctorCopy (y : L) (s : St L A R (Obj V)) (ky : Handle A) (hy : s.hs y = some ky) :
    ctorCopy tr (aware T) y s = ctorCopy tr (plain (T.at (tr.socc ky.alloc))) y s := by
  unfold ctorCopy
  rw [M.bind_ok (getH_some hy), M.bind_ok (getH_some hy)]
  rfl

theorem aware_ctorMove (y : L) (s : St L A R (Obj V)) (ky : Handle A) (hy : s.hs y = some ky) :
    ctorMove tr (aware T) y s = ctorMove tr (plain (T.at ky.alloc)) y s := by
  unfold ctorMove
  refine M.noexcept_congr ?_
  rw [M.bind_ok (getH_some hy), M.bind_ok (getH_some hy)]
  rfl

theorem aware_assignFrom (x : L) (u : Fwd X) (s : St L A R (Obj V)) (kx : Handle A) (hx : s.hs x = some kx) :
    assignFrom tr (aware T) x u s = assignFrom tr (plain (T.at kx.alloc)) x u s := by
  unfold assignFrom
  rw [M.bind_ok (valueless_some hx), M.bind_ok (valueless_some hx)]
  cases kx.p == none with
  | false => rfl
  | true =>
    simp only [if_true]
    rw [M.bind_ok (getH_some hx), M.bind_ok (getH_some hx)]
    rfl

theorem evalSrc_hs {u : Src L X} {s s' : St L A R (Obj V)} {f : Fwd X} (h : evalSrc u s = .ok f s') : s' = s := by
  cases u with
  | arg x => cases h; rfl
  | lval y =>
    simp only [evalSrc, deref, getH, M.bind_eq] at h
    cases hk : s.hs y with
    | none => rw [hk] at h; cases h
    | some k =>
      rw [hk] at h
      cases hp : k.p with
      | none => simp only [hp] at h; cases h
      | some p => simp only [hp] at h; cases h; rfl
  | rval y =>
    simp only [evalSrc, deref, getH, M.bind_eq] at h
    cases hk : s.hs y with
    | none => rw [hk] at h; cases h
    | some k =>
      rw [hk] at h
      cases hp : k.p with
      | none => simp only [hp] at h; cases h
      | some p => simp only [hp] at h; cases h; rfl

theorem aware_step (o : Op L A V X) (s : St L A R (Obj V)) (h : Spec.Legal tr (abs s) o) :
    step tr (aware T) o s = step tr (plain (T.at (Spec.home tr (abs s) o))) o s := by
  cases o with
  | make x a c =>
    rw [Spec.home_make]
    cases a <;> cases c <;> rfl
  | copy x y =>
    obtain ⟨b, hb⟩ := h.2
    obtain ⟨p, hp⟩ := alive hb
    rw [Spec.home_copy hb]
    unfold step
    exact M.bind_congr (aware_ctorCopy tr T y s ⟨p, b.alloc⟩ hp)
  | copyA x a y => rw [Spec.home_copyA]; rfl
  | moveA x a y => rw [Spec.home_moveA]; rfl
  | move x y =>
    obtain ⟨b, hb⟩ := h.2
    obtain ⟨p, hp⟩ := alive hb
    rw [Spec.home_move hb]
    unfold step
    exact M.bind_congr (aware_ctorMove tr T y s ⟨p, b.alloc⟩ hp)
  | assignCopy x y =>
    obtain ⟨b, hb⟩ := h.1
    obtain ⟨c, hc⟩ := h.2
    obtain ⟨p, hp⟩ := alive hb
    obtain ⟨q, hq⟩ := alive hc
    rw [Spec.home_assignCopy hb hc]
    unfold step
    exact M.bind_congr (aware_assignCopy tr T x y s ⟨p, b.alloc⟩ ⟨q, c.alloc⟩ hp hq)
  | assignMove x y =>
    obtain ⟨b, hb⟩ := h.1
    obtain ⟨c, hc⟩ := h.2
    obtain ⟨p, hp⟩ := alive hb
    obtain ⟨q, hq⟩ := alive hc
    rw [Spec.home_assignMove hb hc]
    unfold step
    exact M.bind_congr (aware_assignMove tr T x y s ⟨p, b.alloc⟩ ⟨q, c.alloc⟩ hp hq)
  | assignFrom x u =>
    obtain ⟨b, hb⟩ := h.1
    obtain ⟨p, hp⟩ := alive hb
    rw [Spec.home_assignFrom hb]
    unfold step
    dsimp only
    cases u with
    | arg z => exact M.bind_congr (aware_assignFrom tr T x _ s ⟨p, b.alloc⟩ hp)
    | lval z =>
      rw [M.bind_eq, M.bind_eq]
      cases hd : evalSrc (.lval z : Src L X) s with
      | ok f s' => exact M.bind_congr (aware_assignFrom tr T x _ s' ⟨p, b.alloc⟩ (by rw [evalSrc_hs hd]; exact hp))
      | _ => rfl
    | rval z =>
      rw [M.bind_eq, M.bind_eq]
      cases hd : evalSrc (.rval z : Src L X) s with
      | ok f s' => exact M.bind_congr (aware_assignFrom tr T x _ s' ⟨p, b.alloc⟩ (by rw [evalSrc_hs hd]; exact hp))
      | _ => rfl
  | _ => rfl

end
end Indirect

namespace Polymorphic
section
variable {L A R V X Ty : Type} [DecidableEq L] [DecidableEq R] [DecidableEq Ty] (tr : ATraits A R) (P : PAwareSpec A Ty V X)

theorem pgetH_some {x : L} {s : St L A R (PBody Ty V)} {k : Handle A} (h : s.hs x = some k) : getH x s = .ok k s := by
  unfold getH; rw [h]

theorem pvalueless_some {x : L} {s : St L A R (PBody Ty V)} {k : Handle A} (h : s.hs x = some k) :
    valueless x s = .ok (k.p == none) s := by
  unfold valueless; rw [M.bind_ok (pgetH_some h)]; rfl

theorem derefCB_same {x : L} {s s' : St L A R (PBody Ty V)} {q : Addr} (h : derefCB x s = .ok q s') : s' = s := by
  simp only [derefCB, getH, M.bind_eq] at h
  cases hk : s.hs x with
  | none => rw [hk] at h; cases h
  | some k =>
    rw [hk] at h
    cases hp : k.p with
    | none => simp only [hp] at h; cases h
    | some p => simp only [hp] at h; cases h; rfl

theorem awareP_assignCopy (x y : L) (s : St L A R (PBody Ty V)) (kx ky : Handle A) (hx : s.hs x = some kx)
    (hy : s.hs y = some ky) :
    assignCopy tr (awareP P) x y s = assignCopy tr (plainP (P.at (if tr.pocca then ky.alloc else kx.alloc))) x y s := by
  unfold assignCopy
  by_cases e : x = y
  · simp only [e, if_true]
  · rw [if_neg e, if_neg e]
    dsimp only
    rw [M.bind_ok (pvalueless_some hy), M.bind_ok (pvalueless_some hy)]
    cases ky.p == none with
    | true => simp only [if_true]; rfl
    | false =>
      simp only [Bool.false_eq_true, if_false]
      cases hd : derefCB y s with
      | ok q s' =>
        have := derefCB_same hd
        subst this
        rw [M.bind_ok hd, M.bind_ok hd, M.bind_ok (pgetH_some hx), M.bind_ok (pgetH_some hx), M.bind_ok (pgetH_some hy),
          M.bind_ok (pgetH_some hy)]
        rfl
      | _ => rw [M.bind_eq, M.bind_eq, hd]

theorem awareP_assignMove (x y : L) (s : St L A R (PBody Ty V)) (kx ky : Handle A) (hx : s.hs x = some kx)
    (hy : s.hs y = some ky) :
    assignMove tr (awareP P) x y s = assignMove tr (plainP (P.at (if tr.pocma then ky.alloc else kx.alloc))) x y s := by
  unfold assignMove
  refine M.noexcept_congr ?_
  by_cases e : x = y
  · simp only [e, if_true]
  · rw [if_neg e, if_neg e]
    dsimp only
    rw [M.bind_ok (pvalueless_some hy), M.bind_ok (pvalueless_some hy)]
    cases ky.p == none with
    | true => simp only [if_true]; rfl
    | false =>
      simp only [Bool.false_eq_true, if_false]
      rw [M.bind_ok (pgetH_some hx), M.bind_ok (pgetH_some hx), M.bind_ok (pgetH_some hy), M.bind_ok (pgetH_some hy)]
      cases tr.eq kx.alloc ky.alloc with
      | true => simp only [if_true]; rfl
      | false => simp only [Bool.false_eq_true, if_false]; rfl

theorem awareP_ctorCopy (y : L) (s : St L A R (PBody Ty V)) (ky : Handle A) (hy : s.hs y = some ky) :
    ctorCopy tr (awareP P) y s = ctorCopy tr (plainP (P.at (tr.socc ky.alloc))) y s := by
  unfold ctorCopy
  rw [M.bind_ok (pgetH_some hy), M.bind_ok (pgetH_some hy)]
  rfl

theorem awareP_ctorMove (y : L) (s : St L A R (PBody Ty V)) (ky : Handle A) (hy : s.hs y = some ky) :
    ctorMove tr (awareP P) y s = ctorMove tr (plainP (P.at ky.alloc)) y s := by
  unfold ctorMove
  refine M.noexcept_congr ?_
  rw [M.bind_ok (pgetH_some hy), M.bind_ok (pgetH_some hy)]
  rfl

theorem home_toOp (σ : Spec.Boxes L A (Ty × V)) (o : POp L A Ty V X) : Spec.home tr σ (toOp o) = Spec.phome tr σ o := by
  cases o <;> rfl

theorem palive {s : St L A R (PBody Ty V)} {y : L} {b : Spec.Box A (Ty × V)} (h : abs s y = some b) :
    ∃ p, s.hs y = some ⟨p, b.alloc⟩ := by
  rw [← abs_view] at h
  exact Indirect.alive h

theorem awareP_step (o : POp L A Ty V X) (s : St L A R (PBody Ty V)) (h : Spec.PLegal tr (abs s) o) :
    step tr (awareP P) o s = step tr (plainP (P.at (Spec.phome tr (abs s) o))) o s := by
  rw [← home_toOp]
  cases o with
  | make x a c =>
    simp only [toOp]
    rw [Spec.home_make]
    cases a <;> cases c <;> rfl
  | copy x y =>
    obtain ⟨b, hb⟩ := h.2
    obtain ⟨p, hp⟩ := palive hb
    simp only [toOp]
    rw [Spec.home_copy hb]
    unfold step
    exact M.bind_congr (awareP_ctorCopy tr P y s ⟨p, b.alloc⟩ hp)
  | copyA x a y => simp only [toOp]; rw [Spec.home_copyA]; rfl
  | moveA x a y => simp only [toOp]; rw [Spec.home_moveA]; rfl
  | move x y =>
    obtain ⟨b, hb⟩ := h.2
    obtain ⟨p, hp⟩ := palive hb
    simp only [toOp]
    rw [Spec.home_move hb]
    unfold step
    exact M.bind_congr (awareP_ctorMove tr P y s ⟨p, b.alloc⟩ hp)
  | assignCopy x y =>
    obtain ⟨b, hb⟩ := h.1
    obtain ⟨c, hc⟩ := h.2
    obtain ⟨p, hp⟩ := palive hb
    obtain ⟨q, hq⟩ := palive hc
    simp only [toOp]
    rw [Spec.home_assignCopy hb hc]
    unfold step
    exact M.bind_congr (awareP_assignCopy tr P x y s ⟨p, b.alloc⟩ ⟨q, c.alloc⟩ hp hq)
  | assignMove x y =>
    obtain ⟨b, hb⟩ := h.1
    obtain ⟨c, hc⟩ := h.2
    obtain ⟨p, hp⟩ := palive hb
    obtain ⟨q, hq⟩ := palive hc
    simp only [toOp]
    rw [Spec.home_assignMove hb hc]
    unfold step
    exact M.bind_congr (awareP_assignMove tr P x y s ⟨p, b.alloc⟩ ⟨q, c.alloc⟩ hp hq)
  | _ => rfl

end
end Polymorphic
end Verif
