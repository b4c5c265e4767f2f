import Verif.Proofs.Opaque

/-!
# Types that own nothing, histories, and invariants
-/

set_option autoImplicit false
set_option linter.unusedSectionVars false
set_option linter.unusedSimpArgs false

namespace Verif.Opaque
open Verif Verif.Spec.Opaque

section
variable {L A R V W X : Type} [DecidableEq L] [DecidableEq R] {Rv : V → W → Prop}

theorem AlikeOps.of {T : TOps (St L A R (Obj V)) A X} {T' : TOps (St L A R (Obj W)) A X} (H : AlikeT Rv T T') : AlikeOps (ObjRel Rv) T T' := { H with }

theorem beginObj_rel (p : Addr) (how : How) {v : V} {w : W} (h : Rv v w) : AlikeM (L := L) (A := A) (R := R) (ObjRel Rv) Eq (beginObj p v how) (beginObj p w how) := by
  intro s s' hs
  unfold beginObj
  rcases cells hs p with ⟨h1, h2⟩ | ⟨r, b, b', h1, h2, hb⟩
  · rw [h1, h2]; exact rfl
  · rw [h1, h2]
    cases b <;> cases b' <;> first | exact hb.elim | exact rfl | exact ⟨rfl, { hs with heap := upd_heap hs.heap _ ⟨rfl, h⟩, trace := congrArg (· ++ [.construct p how]) hs.trace }⟩

theorem finish_rel (p : Addr) (how : How) {x : Except Exn V} {y : Except Exn W} (h : ExceptRel Rv x y) :
    AlikeM (L := L) (A := A) (R := R) (ObjRel Rv) Eq (finish p how x) (finish p how y) := by
  cases x <;> cases y <;> first | exact h.elim | exact beginObj_rel p how h | skip
  cases h
  exact objRel.throwE _

theorem rethrow_rel {B B' : Type} [Body B] [Body B'] {RB : B → B' → Prop} (K : BodyRel RB) (x : Option Exn) : AlikeM (L := L) (A := A) (R := R) RB Eq (rethrow x) (rethrow x) := by
  cases x
  · exact K.pure _
  · exact K.throwE _

/-- Types that own nothing. -/
theorem plain_alike {T : TSpec V X} {T' : TSpec W X} (H : Respects Rv T T') : AlikeT (L := L) (A := A) (R := R) Rv (plain T) (plain T') where
  make a d xs := objRel.bind objRel.choose fun c => finish_rel _ _ (H.make xs c)
  copyCtor a d q := objRel.bindR (readObj_rel objRel q) fun v w h => objRel.bind objRel.choose fun c => finish_rel _ _ (H.copy v w c h)
  moveCtor a d q := objRel.bindR (readObj_rel objRel q) fun v w h => objRel.bind objRel.choose fun c =>
    objRel.bind (writeObj_rel objRel q (H.move v w c h).2) fun _ => finish_rel _ _ (H.move v w c h).1
  copyAssign d q := objRel.bindR (readObj_rel objRel d) fun x y g => objRel.bindR (readObj_rel objRel q) fun v w h => objRel.bind objRel.choose fun c => objRel.bind (objRel.emit _) fun _ =>
    objRel.bind (writeObj_rel objRel d (H.copyAssign x y v w c g h).2) fun _ => (H.copyAssign x y v w c g h).1 ▸ rethrow_rel objRel _
  moveAssign d q := objRel.bindR (readObj_rel objRel d) fun x y g => objRel.bindR (readObj_rel objRel q) fun v w h => objRel.bind objRel.choose fun c => objRel.bind (objRel.emit _) fun _ =>
    objRel.bind (writeObj_rel objRel q (H.moveAssign x y v w c g h).2.2) fun _ => objRel.bind (writeObj_rel objRel d (H.moveAssign x y v w c g h).2.1) fun _ =>
      (H.moveAssign x y v w c g h).1 ▸ rethrow_rel objRel _
  assignArg d z := objRel.bindR (readObj_rel objRel d) fun x y g => objRel.bind objRel.choose fun c => objRel.bind (objRel.emit _) fun _ =>
    objRel.bind (writeObj_rel objRel d (H.assignArg x y z c g).2) fun _ => (H.assignArg x y z c g).1 ▸ rethrow_rel objRel _
  dtor a p := objRel.bindR (readObj_rel objRel p) fun _ _ _ => objRel.bind (objRel.writeBody p (b := none) (b' := none) trivial) fun _ => objRel.emit _
  assignable := H.assignable
  copyAssignable := H.copyAssignable

/-- States that are alike stay so when the next call begins. -/
theorem enter_alike {B B' : Type} {RB : B → B' → Prop} {s : St L A R B} {s' : St L A R B'} (h : Alike RB s s') (e : Env) : Alike RB (s.enter e) (s'.enter e) :=
  ⟨h.hs, h.heap, h.trace, rfl, rfl, rfl⟩

theorem init_alike {B B' : Type} (RB : B → B' → Prop) : Alike RB (St.init : St L A R B) (St.init : St L A R B') := ⟨rfl, fun _ => trivial, rfl, rfl, rfl, rfl⟩

/-- Histories. -/
theorem runWith_alike {B B' O O' C C' : Type} {RB : B → B' → Prop} {ρ : O → O' → Prop} {γ : C → C' → Prop} {call : C → St L A R B → Res (St L A R B) O}
    {call' : C' → St L A R B' → Res (St L A R B') O'} (h : ∀ c c' s s', γ c c' → Alike RB s s' → AlikeRes RB ρ (call c s) (call' c' s')) {cs : List C} {cs' : List C'} (hc : Each γ cs cs') :
    ∀ s s', Alike RB s s' → AlikeRun RB ρ (runWith call cs s) (runWith call' cs' s') := by
  induction hc with
  | nil => exact fun _ _ hs => ⟨.nil, hs⟩
  | @cons c c' cs cs' h1 _ ih =>
    intro s s' hs
    have k := h c c' s s' h1 hs
    unfold runWith
    have consl (a : Seen O) (b : Seen O') (hab : AlikeSeen ρ a b) (r : Run (St L A R B) O) (r' : Run (St L A R B') O') (hr : AlikeRun RB ρ r r') : AlikeRun RB ρ (r.cons a) (r'.cons b) := by
      cases r <;> cases r' <;> first | exact hr.elim | exact ⟨.cons hab hr.1, hr.2⟩ | exact .cons hab hr | exact hr
    cases hm : call c s <;> cases hm' : call' c' s' <;> rw [hm, hm'] at k <;> first | exact k.elim | exact .nil | exact k | skip
    · exact consl _ _ (.ret _ _ k.1) _ _ (ih _ _ k.2)
    · exact consl _ _ (k.1 ▸ .exn _) _ _ (ih _ _ k.2)

/-! ## Invariants -/

/-- Equal values that satisfy an invariant. -/
def InvRel (Q : V → Prop) (v w : V) : Prop := v = w ∧ Q v

theorem inv_except {Q : V → Prop} {x : Except Exn V} (h : ∀ v, x = .ok v → Q v) : ExceptRel (InvRel Q) x x := by
  cases x with
  | error e => exact rfl
  | ok v => exact ⟨rfl, h v rfl⟩

theorem inv_respects {Q : V → Prop} {T : TSpec V X} (H : KeepsT Q T) : Respects (InvRel Q) T T where
  make xs n := inv_except (H.make xs n)
  copy v w n h := by obtain ⟨rfl, h⟩ := h; exact inv_except fun w => H.copy v n w h
  move v w n h := by obtain ⟨rfl, h⟩ := h; exact ⟨inv_except fun w => H.move v n w h, rfl, H.moveLeft v n h⟩
  copyAssign d d' v w n g h := by obtain ⟨rfl, h⟩ := h; obtain ⟨rfl, g⟩ := g; exact ⟨rfl, rfl, H.copyAssign _ _ _ g h⟩
  moveAssign d d' v w n g h := by
    obtain ⟨rfl, h⟩ := h
    obtain ⟨rfl, g⟩ := g
    exact ⟨rfl, ⟨rfl, H.moveAssign _ _ _ g h⟩, rfl, H.moveAssignLeft _ _ _ g h⟩
  assignArg d d' x n g := by obtain ⟨rfl, g⟩ := g; exact ⟨rfl, rfl, H.assignArg _ _ _ g⟩
  assignable := rfl
  copyAssignable := rfl

theorem inv_op {Q : V → Prop} {o : Op L A V X} (h : OpKeeps Q o) : AlikeOp (InvRel Q) o o := by
  cases o
  case modify x f => exact .modify x f f fun v w e => by obtain ⟨rfl, e⟩ := e; exact ⟨rfl, h v e⟩
  all_goals constructor

theorem each_refl {α : Type} {ρ : α → α → Prop} {l : List α} (h : ∀ a, a ∈ l → ρ a a) : Each ρ l l := by
  induction l with
  | nil => exact .nil
  | cons a l ih => exact .cons (h a (.head l)) (ih fun b hb => h b (.tail a hb))

/-- What a relation says about the elements of a list. -/
theorem each_mem {α β : Type} {ρ : α → β → Prop} {l : List α} {l' : List β} (h : Each ρ l l') {a : α} (ha : a ∈ l) : ∃ b, ρ a b := by
  induction h with
  | nil => cases ha
  | @cons x y as bs h _ ih =>
    cases ha with
    | head => exact ⟨_, h⟩
    | tail _ ha => exact ih ha

/-- Values that were seen satisfy the invariant, and so do the objects that are alive. -/
theorem inv_run {Q : V → Prop} {r : Run (St L A R (Obj V)) (Out L A V)} {log : List (Seen (Out L A V))} {s : St L A R (Obj V)}
    (h : AlikeRun (ObjRel (InvRel Q)) (AlikeOut (InvRel Q)) r r) (hr : r = .done log s) :
    (∀ v, .ret (.value v) ∈ log → Q v) ∧ ∀ p r v, s.heap p = some ⟨r, some v⟩ → Q v := by
  subst hr
  refine ⟨fun v hv => ?_, fun p r v hp => ?_⟩
  · obtain ⟨b, hb⟩ := each_mem h.1 hv
    cases hb with
    | ret _ o' h => cases h with
      | value _ w h => exact h.2
  · have k := h.2.heap p
    rw [hp] at k
    exact k.2.2

end

/-! ## polymorphic.h -/

section
variable {L A R Ty V W X : Type} [DecidableEq L] [DecidableEq R] [DecidableEq Ty] {Rt : Ty → V → W → Prop}

theorem readU_none' {s : St L A R (PBody Ty V)} {p : Addr} (ty : Ty)
    (h : s.heap p = none ∨ (∃ r, s.heap p = some ⟨r, none⟩) ∨ ∃ r t q, s.heap p = some ⟨r, some ⟨t, q, none⟩⟩) : readU ty p s = .ub .deadObject := by
  rcases h with h | ⟨r, h⟩ | ⟨r, t, q, h⟩ <;> simp [-bind_pure_comp, readU, readCB, readBody, M.bind_eq, M.andThen, M.undef, M.pure_eq, h]

theorem readU_some' {s : St L A R (PBody Ty V)} {p : Addr} (ty : Ty) {r : R} {t : Ty} {q : Option Addr} {u : V} (h : s.heap p = some ⟨r, some ⟨t, q, some u⟩⟩) :
    readU ty p s = if t = ty then .ok u s else .ub .deadObject := by
  by_cases e : t = ty <;> simp [-bind_pure_comp, readU, readCB, readBody, M.bind_eq, M.andThen, M.undef, M.pure_eq, h, e]

/-- Reading a `ty`: then there is one. -/
theorem readU_rel (ty : Ty) (p : Addr) : AlikeM (L := L) (A := A) (R := R) (CBRel Rt) (Rt ty) (readU ty p) (readU ty p) := by
  intro s s' hs
  rcases blocks hs p with ⟨h1, h2⟩ | ⟨r, t, q, a, b, h1, h2, hab⟩
  · rw [readU_none' ty h1, readU_none' ty h2]; exact rfl
  · rw [readU_some' ty h1, readU_some' ty h2]
    by_cases e : t = ty
    · rw [if_pos e, if_pos e]; exact ⟨e ▸ hab, hs⟩
    · rw [if_neg e, if_neg e]; exact rfl

theorem beginU_rel (ty : Ty) (p : Addr) (how : How) {v : V} {w : W} (h : Rt ty v w) : AlikeM (L := L) (A := A) (R := R) (CBRel Rt) Eq (beginU ty p v how) (beginU ty p w how) := by
  intro s s' hs
  unfold beginU
  rcases cells hs p with ⟨h1, h2⟩ | ⟨r, b, b', h1, h2, hb⟩
  · rw [h1, h2]; exact rfl
  · rw [h1, h2]
    cases b <;> cases b' <;> first | exact hb.elim | exact rfl | skip
    rename_i c c'
    obtain ⟨t, q, u⟩ := c
    obtain ⟨t', q', u'⟩ := c'
    obtain ⟨ht, hq, hu⟩ := hb
    cases ht
    cases hq
    cases u <;> cases u' <;> first | exact hu.elim | exact rfl | skip
    simp only
    by_cases e : t = ty
    · rw [if_pos e, if_pos e]
      exact ⟨rfl, { hs with heap := upd_heap hs.heap _ ⟨rfl, rfl, rfl, e ▸ h⟩, trace := congrArg (· ++ [.construct p how]) hs.trace }⟩
    · rw [if_neg e, if_neg e]; exact rfl

theorem finishU_rel (ty : Ty) (p : Addr) (how : How) {x : Except Exn V} {y : Except Exn W} (h : ExceptRel (Rt ty) x y) :
    AlikeM (L := L) (A := A) (R := R) (CBRel Rt) Eq (finishU ty p how x) (finishU ty p how y) := by
  cases x <;> cases y <;> first | exact h.elim | exact beginU_rel ty p how h | skip
  cases h
  exact cbRel.throwE _

/-- Types that own nothing. -/
theorem plainP_alike {P : PSpec Ty V X} {P' : PSpec Ty W X} (H : RespectsP Rt P P') : AlikeP (L := L) (A := A) (R := R) Rt (plainP P) (plainP P') where
  base := H.base
  make ty a d xs := cbRel.bind cbRel.choose fun c => finishU_rel _ _ _ (H.make ty xs c)
  copyCtor ty a d q := cbRel.bindR (readU_rel ty q) fun v w h => cbRel.bind cbRel.choose fun c => finishU_rel _ _ _ (H.copy ty v w c h)
  moveCtor ty a d q := by
    intro s s' hs
    show AlikeRes _ _ ((readU ty q >>= fun v => choose >>= fun c => writeU q (P.move ty v c).2 >>= fun _ => finishU ty d (.moveOf q) (P.move ty v c).1) s)
      ((readU ty q >>= fun v => choose >>= fun c => writeU q (P'.move ty v c).2 >>= fun _ => finishU ty d (.moveOf q) (P'.move ty v c).1) s')
    rcases blocks hs q with ⟨h1, h2⟩ | ⟨r, t, pp, v, w, h1, h2, hab⟩
    · rw [bind_ub (readU_none' ty h1), bind_ub (readU_none' ty h2)]; exact rfl
    · by_cases e : t = ty
      · cases e
        rw [bind_ok (readU_some' ty h1 |>.trans (if_pos rfl)), bind_ok (readU_some' ty h2 |>.trans (if_pos rfl))]
        have hs2 : Alike (CBRel Rt) { s with ti := s.ti + 1 } { s' with ti := s'.ti + 1 } := { hs with ti := congrArg (· + 1) hs.ti }
        have hc : s'.env.choice s'.ti = s.env.choice s.ti := by rw [hs.env, hs.ti]
        have k := H.move ty v w (s.env.choice s.ti) hab
        rw [bind_ok (m := choose) (a := s.env.choice s.ti) (s' := { s with ti := s.ti + 1 }) rfl, bind_ok (m := choose) (a := s'.env.choice s'.ti) (s' := { s' with ti := s'.ti + 1 }) rfl, hc]
        refine bind_at (ρ := Eq) (writeU_at hs2 q fun r' t' q' u' h => ?_) fun _ _ _ => finishU_rel _ _ _ k.1
        rw [show ({ s with ti := s.ti + 1 } : St L A R (PBody Ty V)).heap q = s.heap q from rfl, h1] at h
        cases h
        exact k.2
      · rw [bind_ub (readU_some' ty h1 |>.trans (if_neg e)), bind_ub (readU_some' ty h2 |>.trans (if_neg e))]; exact rfl
  dtor ty a p := cbRel.bindR (readU_rel ty p) fun _ _ _ => cbRel.bindR (readCB_rel cbRel p) fun c c' h =>
    cbRel.bind (cbRel.writeBody p (b := some { c with u := none }) (b' := some { c' with u := none }) ⟨h.1, h.2.1, trivial⟩) fun _ => cbRel.emit _
  block a q m m' h := h

/-- Equal values that satisfy the invariant of their type. -/
def InvP (Q : Ty → V → Prop) (ty : Ty) (v w : V) : Prop := v = w ∧ Q ty v

theorem invP_respects {Q : Ty → V → Prop} {P : PSpec Ty V X} (H : KeepsP Q P) : RespectsP (InvP Q) P P where
  base := rfl
  make ty xs n := inv_except (H.make ty xs n)
  copy ty v w n h := by obtain ⟨rfl, h⟩ := h; exact inv_except fun w => H.copy ty v n w h
  move ty v w n h := by obtain ⟨rfl, h⟩ := h; exact ⟨inv_except fun w => H.move ty v n w h, rfl, H.moveLeft ty v n h⟩

theorem invP_op {Q : Ty → V → Prop} {o : POp L A Ty V X} (h : POpKeeps Q o) : AlikePOp (InvP Q) o o := by
  cases o
  case modify x f => exact .modify x f f fun ty v w e => by obtain ⟨rfl, e⟩ := e; exact ⟨rfl, h ty v e⟩
  all_goals constructor

theorem invP_run {Q : Ty → V → Prop} {r : Run (St L A R (PBody Ty V)) (Out L A (Ty × V))} {log : List (Seen (Out L A (Ty × V)))} {s : St L A R (PBody Ty V)}
    (h : AlikeRun (CBRel (InvP Q)) (AlikeOut (TyRel (InvP Q))) r r) (hr : r = .done log s) :
    (∀ ty v, .ret (.value (ty, v)) ∈ log → Q ty v) ∧ ∀ p r ty q v, s.heap p = some ⟨r, some ⟨ty, q, some v⟩⟩ → Q ty v := by
  subst hr
  refine ⟨fun ty v hv => ?_, fun p r ty q v hp => ?_⟩
  · obtain ⟨b, hb⟩ := each_mem h.1 hv
    cases hb with
    | ret _ o' h => cases h with
      | value _ w h => exact h.2.2
  · have k := h.2.heap p
    rw [hp] at k
    exact k.2.2.2.2

end
end Verif.Opaque
