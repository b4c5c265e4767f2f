import Verif.Proofs.Fine
import Verif.Proofs.Only
import Verif.Spec.Concurrent

/-!
Which accesses a program makes: it uses only the objects `U`, writes only the objects `W`, and nothing in the storage `G`.
-/

set_option autoImplicit false
set_option linter.unusedSectionVars false
set_option linter.unusedSimpArgs false

namespace Verif

/-- The objects that may be used, those that may be written, the storage that may not be written, and the pointers inside
blocks. -/
structure Within.Frame (L A R B : Type) where
  U : L → Prop
  W : L → Prop
  sub : ∀ z, W z → U z
  G : Addr → Prop
  bp : B → Option Addr

namespace Within
variable {L A R B X α β : Type} [DecidableEq L] [DecidableEq R] [Body B]

/-- No condition. -/
abbrev Any {α : Type} : α → Prop := fun _ => True

/-- The object does not point into `G`. -/
abbrev HOk (F : Frame L A R B) : Handle A → Prop := fun h => ∀ p, h.p = some p → ¬ F.G p

/-- The address is not in `G`. -/
abbrev AOk (F : Frame L A R B) : Addr → Prop := fun p => ¬ F.G p

/-- No pointer in the block is in `G`. -/
abbrev BOk (F : Frame L A R B) : B → Prop := fun b => ∀ r, F.bp b = some r → ¬ F.G r

/-- The forwarded argument, if it is moved from, is not in `G`. -/
def FOk (F : Frame L A R B) : Fwd X → Prop
  | .rval q => ¬ F.G q
  | _ => True

/-- The access is allowed. -/
def Allowed (F : Frame L A R B) : Act L A R B → Prop
  | .getH l => F.U l
  | .setP l p => F.W l ∧ ∀ q, p = some q → ¬ F.G q
  | .setAlloc l _ => F.W l
  | .emplace l h => F.W l ∧ HOk F h
  | .endLife l => F.W l
  | .allocate _ => True
  | .deallocate _ p => ¬ F.G p
  | .readBody _ => True
  | .writeBody p b => ¬ F.G p ∧ BOk F b
  | .begin p f _ => ¬ F.G p ∧ ∀ b b', f b = some b' → BOk F b → BOk F b'
  | .emit _ => True
  | .choose => True

/-- What is known about the response. -/
def RespOk (F : Frame L A R B) : (a : Act L A R B) → a.Resp → Prop
  | .getH l, h => F.W l → HOk F h
  | .allocate _, p => ∀ q, p = some q → ¬ F.G q
  | .readBody p, b => ¬ F.G p → BOk F b
  | _, _ => True

/-- All accesses of the program are allowed, and its result satisfies `post`. -/
def Within (F : Frame L A R B) (post : α → Prop) : Prog L A R B α → Prop
  | .ret a => post a
  | .throw _ => True
  | .terminate => True
  | .undef _ => True
  | .act a k => Allowed F a ∧ ∀ r, RespOk F a r → Within F post (k r)

variable {F : Frame L A R B} {post : α → Prop} {post' : β → Prop}

theorem pure' {a : α} (h : post a) : Within F post (pure a : Prog L A R B α) := h
theorem throwE (e : Exn) : Within F post (Prog.throwE e : Prog L A R B α) := trivial
theorem undef (u : UB) : Within F post (Prog.undef u : Prog L A R B α) := trivial

theorem bind {m : Prog L A R B α} {f : α → Prog L A R B β} (hm : Within F post m)
    (hf : ∀ a, post a → Within F post' (f a)) : Within F post' (m >>= f) := by
  show Within F post' (Prog.andThen f m)
  induction m with
  | ret a => exact hf a hm
  | throw e => trivial
  | terminate => trivial
  | undef u => trivial
  | act a k ih => exact ⟨hm.1, fun r hr => ih r (hm.2 r hr)⟩

theorem bindU {γ : Type} {m : Prog L A R B γ} {f : γ → Prog L A R B β} (hm : Within F Any m)
    (hf : ∀ a, Within F post' (f a)) : Within F post' (m >>= f) := bind hm fun a _ => hf a

theorem onThrow {m : Prog L A R B α} {c : Prog L A R B Unit} (hm : Within F post m) (hc : Within F Any c) :
    Within F post (Prog.onThrow m c) := by
  induction m with
  | ret a => exact hm
  | throw e => exact bindU (post' := post) (f := fun _ => Prog.throw e) hc fun _ => trivial
  | terminate => trivial
  | undef u => trivial
  | act a k ih => exact ⟨hm.1, fun r hr => ih r (hm.2 r hr)⟩

theorem noexcept {b : Bool} {m : Prog L A R B α} (hm : Within F post m) : Within F post (Prog.noexceptIf b m) := by
  induction m with
  | ret a => exact hm
  | throw e => cases b <;> trivial
  | terminate => trivial
  | undef u => trivial
  | act a k ih => exact ⟨hm.1, fun r hr => ih r (hm.2 r hr)⟩

theorem ite {c : Prop} [Decidable c] {m n : Prog L A R B α} (hm : Within F post m) (hn : Within F post n) :
    Within F post (if c then m else n) := by split <;> assumption

/-! The primitives. -/

theorem emit (ev : Ev R) : Within F Any (Fine.emit ev : Prog L A R B Unit) := ⟨trivial, fun _ _ => trivial⟩
theorem choose : Within F Any (Fine.choose : Prog L A R B Nat) := ⟨trivial, fun _ _ => trivial⟩
theorem getH {l : L} (hl : F.W l) : Within F (HOk F) (Fine.getH l : Prog L A R B (Handle A)) :=
  ⟨F.sub l hl, fun _ h => h hl⟩
theorem getH' {l : L} (hl : F.U l) : Within F Any (Fine.getH l : Prog L A R B (Handle A)) := ⟨hl, fun _ _ => trivial⟩
theorem setP {l : L} (hl : F.W l) {p : Option Addr} (hp : ∀ q, p = some q → ¬ F.G q) :
    Within F Any (Fine.setP l p : Prog L A R B Unit) := ⟨⟨hl, hp⟩, fun _ _ => trivial⟩
theorem setAlloc {l : L} (hl : F.W l) (a : A) : Within F Any (Fine.setAlloc l a : Prog L A R B Unit) :=
  ⟨hl, fun _ _ => trivial⟩
theorem emplace {l : L} (hl : F.W l) {h : Handle A} (hh : HOk F h) :
    Within F Any (Fine.emplace l h : Prog L A R B Unit) := ⟨⟨hl, hh⟩, fun _ _ => trivial⟩
theorem endLife {l : L} (hl : F.W l) : Within F Any (Fine.endLife l : Prog L A R B Unit) := ⟨hl, fun _ _ => trivial⟩
theorem allocate (r : R) : Within F (AOk F) (Fine.allocate r : Prog L A R B Addr) :=
  ⟨trivial, fun p h => by
    change Option Addr at p
    cases p with
    | none => trivial
    | some q => exact h q rfl⟩
theorem deallocate (r : R) {p : Addr} (hp : ¬ F.G p) : Within F Any (Fine.deallocate r p : Prog L A R B Unit) :=
  ⟨hp, fun _ _ => trivial⟩
theorem readBody {p : Addr} (hp : ¬ F.G p) : Within F (BOk F) (Fine.readBody p : Prog L A R B B) :=
  ⟨trivial, fun _ h => h hp⟩
theorem readBody' (p : Addr) : Within F Any (Fine.readBody p : Prog L A R B B) := ⟨trivial, fun _ _ => trivial⟩
theorem writeBody {p : Addr} (hp : ¬ F.G p) {b : B} (hb : BOk F b) :
    Within F Any (Fine.writeBody p b : Prog L A R B Unit) := ⟨⟨hp, hb⟩, fun _ _ => trivial⟩
theorem beginIn {p : Addr} (hp : ¬ F.G p) {f : B → Option B} {evs : List (Ev R)}
    (hf : ∀ b b', f b = some b' → BOk F b → BOk F b') :
    Within F Any (.act (.begin p f evs) .ret : Prog L A R B Unit) := ⟨⟨hp, hf⟩, fun _ _ => trivial⟩

/-- The operations of the owned type. -/
structure TOnly (F : Frame L A R B) (T : Fine.FOps L A R B X) : Prop where
  make : ∀ {a d} xs, ¬ F.G d → Within F Any (T.make a d xs)
  copyCtor : ∀ {a d} q, ¬ F.G d → Within F Any (T.copyCtor a d q)
  moveCtor : ∀ {a d q}, ¬ F.G d → ¬ F.G q → Within F Any (T.moveCtor a d q)
  copyAssign : ∀ {d} q, ¬ F.G d → Within F Any (T.copyAssign d q)
  moveAssign : ∀ {d q}, ¬ F.G d → ¬ F.G q → Within F Any (T.moveAssign d q)
  assignArg : ∀ {d} x, ¬ F.G d → Within F Any (T.assignArg d x)
  dtor : ∀ a {d}, ¬ F.G d → Within F Any (T.dtor a d)

theorem TOnly.makeFwd {T : Fine.FOps L A R B X} (h : TOnly F T) {a : A} {d : Addr} (hd : ¬ F.G d) {u : Fwd X} (hu : FOk F u) :
    Within F Any (T.makeFwd a d u) := by
  cases u
  · exact h.make _ hd
  · exact h.copyCtor _ hd
  · exact h.moveCtor hd hu

theorem TOnly.assignFwd {T : Fine.FOps L A R B X} (h : TOnly F T) {d : Addr} (hd : ¬ F.G d) {u : Fwd X} (hu : FOk F u) :
    Within F Any (T.assignFwd d u) := by
  cases u
  · exact h.assignArg _ hd
  · exact h.copyAssign _ hd
  · exact h.moveAssign hd hu

end Within

/-- The object may be used. -/
macro "usable" : tactic => `(tactic| first | assumption | exact Within.Frame.sub _ _ (by assumption))

/-! `indirect.h` -/
namespace Fine.Indirect
open Within (Any HOk AOk FOk TOnly Frame)
section
variable {L A R B V X : Type} [DecidableEq L] [DecidableEq R] [Body B]
variable {F : Within.Frame L A R B} (tr : ATraits A R) {T : FOps L A R B X} (hraw : F.bp Body.raw = none)
  (TT : TOnly F T) {x y : L}

theorem within_valueless {x : L} (hx : F.U x) : Within.Within F Any (valueless x) :=
  Within.bindU (Within.getH' hx) fun _ => Within.pure' trivial

theorem within_getAllocator {x : L} (hx : F.U x) : Within.Within F Any (getAllocator x) :=
  Within.bindU (Within.getH' hx) fun _ => Within.pure' trivial

theorem within_deref (hx : F.W x) : Within.Within F (AOk F) (deref x) := by
  refine Within.bind (Within.getH hx) fun h hh => ?_
  split
  · rename_i p hp; exact Within.pure' (hh p hp)
  · exact Within.undef _

theorem within_deref' {x : L} (hx : F.U x) : Within.Within F Any (deref x) := by
  refine Within.bindU (Within.getH' hx) fun h => ?_
  split
  · exact Within.pure' trivial
  · exact Within.undef _

include hraw in
theorem within_constructFrom (a : A) {k : A → Addr → Prog L A R B Unit} (hk : ∀ b p, ¬ F.G p → Within.Within F Any (k b p)) :
    Within.Within F (AOk F) (constructFrom tr a k) := by
  unfold constructFrom
  refine Within.bind (Within.allocate _) fun p hp => ?_
  refine Within.bindU (Within.onThrow (hk _ p hp) (Within.deallocate _ hp)) fun _ => ?_
  exact Within.pure' hp

theorem within_swap (hx : F.W x) (hy : F.W y) : Within.Within F Any (swap tr x y) := by
  unfold swap
  refine Within.noexcept (Within.bind (Within.getH hx) fun t ht => Within.bind (Within.getH hy) fun o ho => ?_)
  refine Within.ite ?_ (Within.ite ?_ (Within.undef _))
  · exact Within.bindU (Within.setAlloc hx _) fun _ => Within.bindU (Within.setAlloc hy _) fun _ =>
      Within.bindU (Within.setP hx ho) fun _ => Within.setP hy ht
  · exact Within.bindU (Within.setP hx ho) fun _ => Within.setP hy ht

theorem within_friendSwap (hx : F.W x) (hy : F.W y) : Within.Within F Any (friendSwap tr x y) :=
  Within.noexcept (within_swap tr hx hy)

include TT

theorem within_reset (hx : F.W x) : Within.Within F Any (reset tr T x) := by
  unfold reset destroyWith
  refine Within.noexcept (Within.bind (Within.getH hx) fun h hh => ?_)
  split
  · exact Within.pure' trivial
  · rename_i p hp
    exact Within.bindU (Within.bindU (TT.dtor _ (hh p hp)) fun _ => Within.deallocate _ (hh p hp)) fun _ =>
      Within.setP hx (by simp)

theorem within_dtor (hx : F.W x) : Within.Within F Any (dtor tr T x) :=
  Within.noexcept (Within.bindU (within_reset tr TT hx) fun _ => Within.endLife hx)

include hraw

theorem within_ctorCopyA (a : A) (hy : F.U y) : Within.Within F (HOk F) (ctorCopyA tr T a y) := by
  unfold ctorCopyA
  refine Within.bindU (within_valueless (by usable)) fun b => Within.ite (Within.pure' (fun _ h => nomatch h)) ?_
  refine Within.bindU (within_deref' (by usable)) fun q => ?_
  refine Within.bind (within_constructFrom tr hraw a fun _ p hp => TT.copyCtor q hp) fun p hp => Within.pure' ?_
  rintro p' ⟨⟩; exact hp

theorem within_ctorCopy (hy : F.U y) : Within.Within F (HOk F) (ctorCopy tr T y) :=
  Within.bindU (Within.getH' (by usable)) fun _ => within_ctorCopyA tr hraw TT _ hy

theorem within_ctorMoveA (a : A) (hy : F.W y) : Within.Within F (HOk F) (ctorMoveA tr T a y) := by
  unfold ctorMoveA
  refine Within.noexcept (Within.bind (Within.getH hy) fun o ho => ?_)
  refine Within.ite ?_ (Within.ite ?_ ?_)
  · exact Within.bindU (Within.setP hy (by simp)) fun _ => Within.pure' ho
  · exact Within.bindU (Within.setP hy (by simp)) fun _ => Within.pure' ho
  · refine Within.bindU (within_valueless (by usable)) fun b => Within.ite ?_ (Within.pure' (fun _ h => nomatch h))
    refine Within.bind (within_deref hy) fun q hq => ?_
    refine Within.bind (within_constructFrom tr hraw a fun _ p hp => TT.moveCtor hp hq) fun p hp => Within.pure' ?_
    rintro p' ⟨⟩; exact hp

theorem within_ctorMove (hy : F.W y) : Within.Within F (HOk F) (ctorMove tr T y) :=
  Within.noexcept (Within.bindU (Within.getH' (by usable)) fun _ => within_ctorMoveA tr hraw TT _ hy)

theorem within_assignCopy (hx : F.W x) (hy : F.U y) : Within.Within F Any (assignCopy tr T x y) := by
  have hend : Within.Within F Any (do
      if tr.pocca then
        let o ← getH y
        setAlloc x o.alloc
      pure x : Prog L A R B L) := by
    refine Within.ite ?_ ?_
    · exact Within.bindU (Within.getH' (by usable)) fun _ => Within.bindU (Within.setAlloc hx _) fun _ => Within.pure' trivial
    · exact Within.pure' trivial
  unfold assignCopy
  refine Within.ite (Within.pure' trivial) ?_
  refine Within.bindU (within_valueless (by usable)) fun b => Within.ite ?_ ?_
  · exact Within.bindU (within_reset tr TT hx) fun _ => hend
  · refine Within.bindU (Within.getH' (by usable)) fun t => Within.bindU (Within.getH' (by usable)) fun o => Within.ite ?_ ?_
    · exact Within.bind (within_deref hx) fun d hd => Within.bindU (within_deref' (by usable)) fun q =>
        Within.bindU (TT.copyAssign q hd) fun _ => hend
    · refine Within.bindU (within_deref' (by usable)) fun q => ?_
      refine Within.bind (within_constructFrom tr hraw _ fun _ p hp => TT.copyCtor q hp) fun p hp => ?_
      exact Within.bindU (within_reset tr TT hx) fun _ => Within.bindU (Within.setP hx (by rintro q ⟨⟩; exact hp)) fun _ => hend

theorem within_assignMove (hx : F.W x) (hy : F.W y) : Within.Within F Any (assignMove tr T x y) := by
  have hend : Within.Within F Any (do
      if tr.pocma then
        let o ← getH y
        setAlloc x o.alloc
      pure x : Prog L A R B L) := by
    refine Within.ite ?_ ?_
    · exact Within.bindU (Within.getH' (by usable)) fun _ => Within.bindU (Within.setAlloc hx _) fun _ => Within.pure' trivial
    · exact Within.pure' trivial
  unfold assignMove
  refine Within.noexcept (Within.ite (Within.pure' trivial) ?_)
  refine Within.bindU (within_valueless (by usable)) fun b => Within.ite ?_ ?_
  · exact Within.bindU (within_reset tr TT hx) fun _ => hend
  · refine Within.bind (Within.getH hx) fun t ht => Within.bind (Within.getH hy) fun o ho => Within.ite ?_ ?_
    · exact Within.bindU (Within.setP hx ho) fun _ => Within.bindU (Within.setP hy ht) fun _ =>
        Within.bindU (within_reset tr TT hy) fun _ => hend
    · refine Within.bind (within_deref hy) fun q hq => ?_
      refine Within.bind (within_constructFrom tr hraw _ fun _ p hp => TT.moveCtor hp hq) fun p hp => ?_
      exact Within.bindU (within_reset tr TT hx) fun _ => Within.bindU (Within.setP hx (by rintro q ⟨⟩; exact hp)) fun _ => hend

theorem within_assignFrom (hx : F.W x) {u : Fwd X} (hu : FOk F u) : Within.Within F Any (assignFrom tr T x u) := by
  unfold assignFrom
  refine Within.bindU (within_valueless (by usable)) fun b => Within.ite ?_ ?_
  · refine Within.bindU (Within.getH' (by usable)) fun t => ?_
    refine Within.bind (within_constructFrom tr hraw _ fun _ p hp => TT.makeFwd hp hu) fun p hp => ?_
    exact Within.bindU (Within.setP hx (by rintro q ⟨⟩; exact hp)) fun _ => Within.pure' trivial
  · exact Within.bind (within_deref hx) fun d hd => Within.bindU (TT.assignFwd hd hu) fun _ => Within.pure' trivial

end

section
variable {L A R V X : Type} [DecidableEq L] [DecidableEq R]
variable {F : Within.Frame L A R (Obj V)} (hbp : ∀ b, F.bp b = none)

theorem within_readObj (p : Addr) : Within.Within F Any (readObj p) := by
  refine Within.bindU (Within.readBody' p) fun b => ?_
  split
  · exact Within.pure' trivial
  · exact Within.undef _

theorem within_rethrow (r : Option Exn) : Within.Within F Any (rethrow r) := by
  cases r
  · exact Within.pure' trivial
  · exact Within.throwE _

include hbp

theorem within_writeObj {p : Addr} (hp : ¬ F.G p) (v : V) : Within.Within F Any (writeObj p v) :=
  Within.bindU (within_readObj p) fun _ => Within.writeBody hp (by intro r hr; simp [hbp] at hr)

theorem within_beginObj {p : Addr} (hp : ¬ F.G p) (v : V) (how : How) :
    Within.Within F Any (beginObj p v how : Prog L A R (Obj V) Unit) :=
  Within.beginIn hp (by intro b b' _ _ r hr; simp [hbp] at hr)

theorem within_finish {p : Addr} (hp : ¬ F.G p) (r : Except Exn V) (how : How) :
    Within.Within F Any (finish p how r : Prog L A R (Obj V) Unit) := by
  cases r
  · exact Within.throwE _
  · exact within_beginObj hbp hp _ how

theorem within_plain (T : TSpec V X) : TOnly F (plain T : FOps L A R (Obj V) X) where
  make xs hd := Within.bindU Within.choose fun _ => within_finish hbp hd _ _
  copyCtor q hd := Within.bindU (within_readObj q) fun _ => Within.bindU Within.choose fun _ =>
    within_finish hbp hd _ _
  moveCtor hd hq := Within.bindU (within_readObj _) fun _ => Within.bindU Within.choose fun _ =>
    Within.bindU (within_writeObj hbp hq _) fun _ => within_finish hbp hd _ _
  copyAssign q hd := Within.bindU (within_readObj _) fun _ => Within.bindU (within_readObj q) fun _ =>
    Within.bindU Within.choose fun _ => Within.bindU (Within.emit _) fun _ =>
    Within.bindU (within_writeObj hbp hd _) fun _ => within_rethrow _
  moveAssign hd hq := Within.bindU (within_readObj _) fun _ => Within.bindU (within_readObj _) fun _ =>
    Within.bindU Within.choose fun _ => Within.bindU (Within.emit _) fun _ =>
    Within.bindU (within_writeObj hbp hq _) fun _ => Within.bindU (within_writeObj hbp hd _) fun _ => within_rethrow _
  assignArg x hd := Within.bindU (within_readObj _) fun _ =>
    Within.bindU Within.choose fun _ => Within.bindU (Within.emit _) fun _ =>
    Within.bindU (within_writeObj hbp hd _) fun _ => within_rethrow _
  dtor _ _ hd := Within.bindU (within_readObj _) fun _ => Within.bindU (Within.writeBody hd (by intro r hr; simp [hbp] at hr)) fun _ =>
    Within.emit _

omit hbp in
theorem within_evalSrc {u : Src L X} (hU : ∀ z ∈ Spec.srcOperands u, F.U z) (hu : ∀ z, Spec.movedSrc u = some z → F.W z) :
    Within.Within F (FOk F) (evalSrc u : Prog L A R (Obj V) (Fwd X)) := by
  cases u with
  | arg x => exact Within.pure' trivial
  | lval y =>
    have hy : F.U y := hU y (by simp [Spec.srcOperands])
    exact Within.bindU (within_deref' (by usable)) fun _ => Within.pure' trivial
  | rval y => exact Within.bind (within_deref (hu y rfl)) fun _ h => Within.pure' h

variable (tr : ATraits A R) (T : TSpec V X)

theorem within_construct (a : Option A) {c : Ctor L X} {x : L}
    (hop : ∀ z ∈ Spec.operands (.make x a c : Op L A V X), F.U z)
    (hc : ∀ z, Spec.movedFrom (.make x a c : Op L A V X) = some z → F.W z) :
    Within.Within F (HOk F) (construct tr (plain T) a c) := by
  have TT := within_plain (F := F) hbp T
  have hr : F.bp Body.raw = none := hbp _
  have hm : ∀ (b : A) (k : A → Addr → Prog L A R (Obj V) Unit), (∀ b p, ¬ F.G p → Within.Within F Any (k b p)) →
      Within.Within F (HOk F) (do
        let p ← constructFrom tr b k
        pure ⟨some p, b⟩) := fun b k hk =>
    Within.bind (within_constructFrom tr hr b hk) fun p hp => Within.pure' (by rintro q ⟨⟩; exact hp)
  cases a <;> cases c <;> simp only [construct]
  · exact hm _ _ fun _ _ hp => TT.make _ hp
  · exact Within.bind (within_evalSrc (fun z hz => hop z (by simp [Spec.operands, hz])) hc) fun _ hu => hm _ _ fun _ _ hp => TT.makeFwd hp hu
  · exact hm _ _ fun _ _ hp => TT.make _ hp
  · exact Within.bind (within_evalSrc (fun z hz => hop z (by simp [Spec.operands, hz])) hc) fun _ hu => hm _ _ fun _ _ hp => TT.makeFwd hp hu
  · exact hm _ _ fun _ _ hp => TT.make _ hp
  · exact hm _ _ fun _ _ hp => TT.make _ hp
  · exact Within.bind (within_evalSrc (fun z hz => hop z (by simp [Spec.operands, hz])) hc) fun _ hu => hm _ _ fun _ _ hp => TT.makeFwd hp hu
  · exact hm _ _ fun _ _ hp => TT.make _ hp
  · exact Within.bind (within_evalSrc (fun z hz => hop z (by simp [Spec.operands, hz])) hc) fun _ hu => hm _ _ fun _ _ hp => TT.makeFwd hp hu
  · exact hm _ _ fun _ _ hp => TT.make _ hp

theorem within_step {o : Op L A V X} (hop : ∀ z ∈ Spec.operands o, F.U z) (ho : ∀ z ∈ Spec.changes o, F.W z) : Within.Within F Any (step tr (plain T) o) := by
  have TT := within_plain (F := F) hbp T
  have hr : F.bp Body.raw = none := hbp _
  have hmv : ∀ z, Spec.movedFrom o = some z → F.W z := fun z hz => ho z (by simp [Spec.changes, hz])
  have hrb : ∀ z ∈ Spec.rebinds o, F.W z := fun z hz => ho z (by simp [Spec.changes, hz])
  cases o with
  | make x a c =>
    have hx : F.W x := hrb x (by simp [Spec.rebinds])
    exact Within.bind (within_construct hbp tr T a hop hmv) fun _ hh => Within.bindU (Within.emplace hx hh) fun _ => Within.pure' trivial
  | copy x y =>
    have hy : F.U y := hop y (by simp [Spec.operands])
    have hx : F.W x := hrb x (by simp [Spec.rebinds])
    exact Within.bind (within_ctorCopy tr hr TT hy) fun _ hh => Within.bindU (Within.emplace hx hh) fun _ => Within.pure' trivial
  | copyA x a y =>
    have hy : F.U y := hop y (by simp [Spec.operands])
    have hx : F.W x := hrb x (by simp [Spec.rebinds])
    exact Within.bind (within_ctorCopyA tr hr TT a hy) fun _ hh => Within.bindU (Within.emplace hx hh) fun _ => Within.pure' trivial
  | move x y =>
    have hx : F.W x := hrb x (by simp [Spec.rebinds])
    have hy : F.W y := hrb y (by simp [Spec.rebinds])
    exact Within.bind (within_ctorMove tr hr TT hy) fun _ hh => Within.bindU (Within.emplace hx hh) fun _ => Within.pure' trivial
  | moveA x a y =>
    have hx : F.W x := hrb x (by simp [Spec.rebinds])
    have hy : F.W y := hrb y (by simp [Spec.rebinds])
    exact Within.bind (within_ctorMoveA tr hr TT a hy) fun _ hh => Within.bindU (Within.emplace hx hh) fun _ => Within.pure' trivial
  | destroy x =>
    have hx : F.W x := hrb x (by simp [Spec.rebinds])
    exact Within.bindU (within_dtor tr TT hx) fun _ => Within.pure' trivial
  | assignCopy x y =>
    have hy : F.U y := hop y (by simp [Spec.operands])
    have hx : F.W x := hrb x (by simp [Spec.rebinds])
    exact Within.bindU (within_assignCopy tr hr TT hx hy) fun _ => Within.pure' trivial
  | assignMove x y =>
    have hx : F.W x := hrb x (by simp [Spec.rebinds])
    have hy : F.W y := hrb y (by simp [Spec.rebinds])
    exact Within.bindU (within_assignMove tr hr TT hx hy) fun _ => Within.pure' trivial
  | assignFrom x u =>
    have hx : F.W x := hrb x (by simp [Spec.rebinds])
    exact Within.bind (within_evalSrc (fun z hz => hop z (by simp [Spec.operands, hz])) hmv) fun _ hu =>
      Within.bindU (within_assignFrom tr hr TT hx hu) fun _ => Within.pure' trivial
  | deref x =>
    have hx : F.U x := hop x (by simp [Spec.operands])
    exact Within.bindU (within_deref' (by usable)) fun _ => Within.bindU (within_readObj _) fun _ => Within.pure' trivial
  | arrow x =>
    have hx : F.U x := hop x (by simp [Spec.operands])
    exact Within.bindU (within_deref' (by usable)) fun _ => Within.bindU (within_readObj _) fun _ => Within.pure' trivial
  | modify x f =>
    have hx : F.W x := ho x (by simp [Spec.changes])
    exact Within.bind (within_deref hx) fun _ hp => Within.bindU (within_readObj _) fun _ =>
      Within.bindU (within_writeObj hbp hp _) fun _ => Within.pure' trivial
  | valueless x =>
    have hx : F.U x := hop x (by simp [Spec.operands])
    exact Within.bindU (within_valueless (by usable)) fun _ => Within.pure' trivial
  | getAllocator x =>
    have hx : F.U x := hop x (by simp [Spec.operands])
    exact Within.bindU (within_getAllocator (by usable)) fun _ => Within.pure' trivial
  | swap x y =>
    have hx : F.W x := hrb x (by simp [Spec.rebinds])
    have hy : F.W y := hrb y (by simp [Spec.rebinds])
    exact Within.bindU (within_swap tr hx hy) fun _ => Within.pure' trivial
  | friendSwap x y =>
    have hx : F.W x := hrb x (by simp [Spec.rebinds])
    have hy : F.W y := hrb y (by simp [Spec.rebinds])
    exact Within.bindU (within_friendSwap tr hx hy) fun _ => Within.pure' trivial

end
end Fine.Indirect

/-! `polymorphic.h` -/
namespace Fine.Polymorphic
open Verif.Polymorphic (cbPtr)
open Within (Any HOk AOk FOk Frame)
section
variable {L A R Ty V X : Type} [DecidableEq L] [DecidableEq R] [DecidableEq Ty]
variable {F : Within.Frame L A R (PBody Ty V)} (hbp : F.bp = cbPtr)

/-- The pointer in the control block is not in `G`. -/
abbrev COk' (F : Frame L A R (PBody Ty V)) : CB Ty V → Prop := fun c => ∀ r, c.p = some r → ¬ F.G r

include hbp in
theorem within_readCB {q : Addr} (hq : ¬ F.G q) : Within.Within F (COk' F) (readCB q) := by
  refine Within.bind (Within.readBody hq) fun b hb => ?_
  simp only [Within.BOk, hbp] at hb
  split
  · exact Within.pure' fun r hr => hb r (by simp [cbPtr, hr])
  · exact Within.undef _

theorem within_readCB' (q : Addr) : Within.Within F Any (readCB q) := by
  refine Within.bindU (Within.readBody' q) fun b => ?_
  split
  · exact Within.pure' trivial
  · exact Within.undef _

theorem within_readAny (q : Addr) : Within.Within F Any (readAny q) := by
  refine Within.bindU (within_readCB' q) fun c => ?_
  split
  · exact Within.pure' trivial
  · exact Within.undef _

theorem within_readU (ty : Ty) (q : Addr) : Within.Within F Any (readU ty q) := by
  refine Within.bindU (within_readCB' q) fun c => ?_
  split
  · exact Within.ite (Within.pure' trivial) (Within.undef _)
  · exact Within.undef _

include hbp

theorem within_writeU {q : Addr} (hq : ¬ F.G q) (v : V) : Within.Within F Any (writeU q v) := by
  refine Within.bind (within_readCB hbp hq) fun c hc => ?_
  split
  · exact Within.writeBody hq (by simp only [Within.BOk, hbp]; exact hc)
  · exact Within.undef _

theorem within_beginU (ty : Ty) {q : Addr} (hq : ¬ F.G q) (v : V) (how : How) :
    Within.Within F Any (beginU ty q v how : Prog L A R (PBody Ty V) Unit) := by
  refine Within.beginIn hq ?_
  intro b b' hb hB r hr
  rw [hbp] at hr
  split at hb
  · split at hb
    · cases hb
      exact hB r (by rw [hbp]; exact hr)
    · cases hb
  · cases hb

theorem within_finishU (ty : Ty) {q : Addr} (hq : ¬ F.G q) (r : Except Exn V) (how : How) :
    Within.Within F Any (finishU ty q how r : Prog L A R (PBody Ty V) Unit) := by
  cases r
  · exact Within.throwE _
  · exact within_beginU hbp ty hq _ how

theorem within_beginCB (ty : Ty) {q : Addr} (hq : ¬ F.G q) :
    Within.Within F Any (beginCB ty q : Prog L A R (PBody Ty V) Unit) := by
  refine Within.beginIn hq ?_
  intro b b' hb _ r hr
  split at hb
  · cases hb
    rw [hbp] at hr
    simp [cbPtr] at hr
  · cases hb

theorem within_abortCB {q : Addr} (hq : ¬ F.G q) : Within.Within F Any (abortCB q : Prog L A R (PBody Ty V) Unit) := by
  refine Within.bindU (within_readCB' q) fun c => ?_
  split
  · exact Within.undef _
  · exact Within.writeBody hq (by simp [Within.BOk, hbp, cbPtr])

theorem within_setCBp {q r : Addr} (hq : ¬ F.G q) (hr : ¬ F.G r) :
    Within.Within F Any (setCBp q r : Prog L A R (PBody Ty V) Unit) :=
  Within.bindU (within_readCB' q) fun c => Within.writeBody hq (by simp only [Within.BOk, hbp]; rintro r' ⟨⟩; exact hr)

/-- The operations of the owned types write only the objects they may. -/
structure POnly (F : Frame L A R (PBody Ty V)) (P : FPOps L A R (PBody Ty V) Ty X) : Prop where
  make : ∀ ty {a d} xs, ¬ F.G d → Within.Within F Any (P.make ty a d xs)
  copyCtor : ∀ ty {a d} q, ¬ F.G d → Within.Within F Any (P.copyCtor ty a d q)
  moveCtor : ∀ ty {a d q}, ¬ F.G d → ¬ F.G q → Within.Within F Any (P.moveCtor ty a d q)
  dtor : ∀ ty a {d}, ¬ F.G d → Within.Within F Any (P.dtor ty a d)
  block : ∀ a {d m}, ¬ F.G d → Within.Within F Any m → Within.Within F Any (P.block a d m)

omit hbp in
theorem POnly.makeFwd {P : FPOps L A R (PBody Ty V) Ty X} (h : POnly F P) (ty : Ty) {a : A} {d : Addr} (hd : ¬ F.G d)
    {u : Fwd X} (hu : FOk F u) : Within.Within F Any (P.makeFwd ty a d u) := by
  cases u
  · exact h.make _ _ hd
  · exact h.copyCtor _ _ hd
  · exact h.moveCtor _ hd hu

theorem within_plainP (P : PSpec Ty V X) : POnly F (plainP P) where
  make ty _ _ xs hd := Within.bindU Within.choose fun _ => within_finishU hbp ty hd _ _
  copyCtor ty _ _ q hd := Within.bindU (within_readU ty q) fun _ => Within.bindU Within.choose fun _ =>
    within_finishU hbp ty hd _ _
  moveCtor ty _ _ _ hd hq := Within.bindU (within_readU ty _) fun _ => Within.bindU Within.choose fun _ =>
    Within.bindU (within_writeU hbp hq _) fun _ => within_finishU hbp ty hd _ _
  dtor ty _ _ hd := Within.bindU (within_readU ty _) fun _ => Within.bind (within_readCB hbp hd) fun c hc =>
    Within.bindU (Within.writeBody hd (by simp only [Within.BOk, hbp]; exact hc)) fun _ => Within.emit _
  block _ _ _ _ h := h

theorem within_cbCtor (ty : Ty) (a : A) {q : Addr} (hq : ¬ F.G q) {k : A → Addr → Prog L A R (PBody Ty V) Unit}
    (hk : ∀ b p, ¬ F.G p → Within.Within F Any (k b p)) : Within.Within F Any (cbCtor ty a q k) :=
  Within.bindU (within_beginCB hbp ty hq) fun _ => Within.bindU (Within.onThrow (hk _ q hq) (within_abortCB hbp hq)) fun _ =>
    within_setCBp hbp hq hq

variable (tr : ATraits A R) {P : FPOps L A R (PBody Ty V) Ty X} (TT : POnly F P) {x y : L}

include TT in
theorem within_createControlBlock (ty : Ty) (a : A) {k : A → Addr → Prog L A R (PBody Ty V) Unit}
    (hk : ∀ b p, ¬ F.G p → Within.Within F Any (k b p)) : Within.Within F (AOk F) (createControlBlock tr P ty a k) := by
  refine Within.bind (Within.allocate _) fun p hp => ?_
  refine Within.bindU (Within.onThrow (TT.block _ hp (within_cbCtor hbp ty _ hp hk)) (Within.deallocate _ hp)) fun _ => ?_
  exact Within.pure' hp

omit hbp in
theorem within_valueless {x : L} (hx : F.U x) : Within.Within F Any (valueless x) :=
  Within.bindU (Within.getH' hx) fun _ => Within.pure' trivial

omit hbp in
theorem within_getAllocator {x : L} (hx : F.U x) : Within.Within F Any (getAllocator x) :=
  Within.bindU (Within.getH' hx) fun _ => Within.pure' trivial

omit hbp in
theorem within_derefCB (hx : F.W x) : Within.Within F (AOk F) (derefCB x) := by
  refine Within.bind (Within.getH hx) fun h hh => ?_
  split
  · rename_i p hp; exact Within.pure' (hh p hp)
  · exact Within.undef _

omit hbp in
theorem within_derefCB' {x : L} (hx : F.U x) : Within.Within F Any (derefCB x) := by
  refine Within.bindU (Within.getH' hx) fun h => ?_
  split
  · exact Within.pure' trivial
  · exact Within.undef _

theorem within_deref (hx : F.W x) : Within.Within F (AOk F) (deref x) := by
  refine Within.bind (within_derefCB hx) fun q hq => Within.bind (within_readCB hbp hq) fun c hc => ?_
  split
  · rename_i p hp; exact Within.pure' (hc p hp)
  · exact Within.undef _

omit hbp in
theorem within_deref' {x : L} (hx : F.U x) : Within.Within F Any (deref x) := by
  refine Within.bindU (within_derefCB' hx) fun q => Within.bindU (within_readCB' q) fun c => ?_
  split
  · exact Within.pure' trivial
  · exact Within.undef _

omit hbp in
theorem within_swap (hx : F.W x) (hy : F.W y) : Within.Within F Any (swap tr x y) := by
  unfold swap
  refine Within.noexcept (Within.bind (Within.getH hx) fun t ht => Within.bind (Within.getH hy) fun o ho => ?_)
  refine Within.ite ?_ (Within.ite ?_ (Within.undef _))
  · exact Within.bindU (Within.setAlloc hx _) fun _ => Within.bindU (Within.setAlloc hy _) fun _ =>
      Within.bindU (Within.setP hx ho) fun _ => Within.setP hy ht
  · exact Within.bindU (Within.setP hx ho) fun _ => Within.setP hy ht

omit hbp in
theorem within_friendSwap (hx : F.W x) (hy : F.W y) : Within.Within F Any (friendSwap tr x y) :=
  Within.noexcept (within_swap tr hx hy)

include TT

theorem within_vclone (q : Addr) (a : A) : Within.Within F (AOk F) (vclone tr P q a) :=
  Within.bindU (within_readCB' q) fun c => within_createControlBlock hbp tr TT c.ty a fun _ _ hp => TT.copyCtor _ q hp

theorem within_vmove {q : Addr} (hq : ¬ F.G q) (a : A) : Within.Within F (AOk F) (vmove tr P q a) :=
  Within.bindU (within_readCB' q) fun c => within_createControlBlock hbp tr TT c.ty a fun _ _ hp => TT.moveCtor _ hp hq

omit hbp in
theorem within_reset (hx : F.W x) : Within.Within F Any (reset tr P x) := by
  unfold reset
  refine Within.noexcept (Within.bind (Within.getH hx) fun h hh => ?_)
  split
  · exact Within.pure' trivial
  · rename_i p hp
    exact Within.bindU (Within.bindU (within_readCB' p) fun c => Within.bindU (TT.dtor _ _ (hh p hp)) fun _ =>
      Within.deallocate _ (hh p hp)) fun _ => Within.setP hx (by simp)

omit hbp in
theorem within_dtor (hx : F.W x) : Within.Within F Any (dtor tr P x) :=
  Within.noexcept (Within.bindU (within_reset tr TT hx) fun _ => Within.endLife hx)

theorem within_ctorCopyA (a : A) (hy : F.U y) : Within.Within F (HOk F) (ctorCopyA tr P a y) := by
  unfold ctorCopyA
  refine Within.bindU (within_valueless (by usable)) fun b => Within.ite ?_ (Within.pure' (fun _ h => nomatch h))
  refine Within.bindU (within_derefCB' (by usable)) fun q => ?_
  refine Within.bind (within_vclone hbp tr TT q a) fun p hp => Within.pure' ?_
  rintro p' ⟨⟩; exact hp

theorem within_ctorCopy (hy : F.U y) : Within.Within F (HOk F) (ctorCopy tr P y) :=
  Within.bindU (Within.getH' (by usable)) fun _ => within_ctorCopyA hbp tr TT _ hy

theorem within_ctorMoveA (a : A) (hy : F.W y) : Within.Within F (HOk F) (ctorMoveA tr P a y) := by
  unfold ctorMoveA
  refine Within.noexcept (Within.bind (Within.getH hy) fun o ho => ?_)
  refine Within.ite ?_ (Within.ite ?_ ?_)
  · exact Within.bindU (Within.setP hy (by simp)) fun _ => Within.pure' ho
  · exact Within.bindU (Within.setP hy (by simp)) fun _ => Within.pure' ho
  · refine Within.bindU (within_valueless (by usable)) fun b => Within.ite ?_ (Within.pure' (fun _ h => nomatch h))
    refine Within.bind (within_derefCB hy) fun q hq => ?_
    refine Within.bind (within_vmove hbp tr TT hq a) fun p hp => Within.pure' ?_
    rintro p' ⟨⟩; exact hp

theorem within_ctorMove (hy : F.W y) : Within.Within F (HOk F) (ctorMove tr P y) :=
  Within.noexcept (Within.bindU (Within.getH' (by usable)) fun _ => within_ctorMoveA hbp tr TT _ hy)

theorem within_assignCopy (hx : F.W x) (hy : F.U y) : Within.Within F Any (assignCopy tr P x y) := by
  have hend : Within.Within F Any (do
      if tr.pocca then
        let o ← getH y
        setAlloc x o.alloc
      pure x : Prog L A R (PBody Ty V) L) := by
    refine Within.ite ?_ ?_
    · exact Within.bindU (Within.getH' (by usable)) fun _ => Within.bindU (Within.setAlloc hx _) fun _ => Within.pure' trivial
    · exact Within.pure' trivial
  unfold assignCopy
  refine Within.ite (Within.pure' trivial) ?_
  refine Within.bindU (within_valueless (by usable)) fun b => Within.ite ?_ ?_
  · exact Within.bindU (within_reset tr TT hx) fun _ => hend
  · refine Within.bindU (within_derefCB' (by usable)) fun q => Within.bindU (Within.getH' (by usable)) fun t => Within.bindU (Within.getH' (by usable)) fun o => ?_
    refine Within.bind (within_vclone hbp tr TT q _) fun p hp => ?_
    exact Within.bindU (within_reset tr TT hx) fun _ => Within.bindU (Within.setP hx (by rintro q ⟨⟩; exact hp)) fun _ => hend

theorem within_assignMove (hx : F.W x) (hy : F.W y) : Within.Within F Any (assignMove tr P x y) := by
  have hend : Within.Within F Any (do
      if tr.pocma then
        let o ← getH y
        setAlloc x o.alloc
      pure x : Prog L A R (PBody Ty V) L) := by
    refine Within.ite ?_ ?_
    · exact Within.bindU (Within.getH' (by usable)) fun _ => Within.bindU (Within.setAlloc hx _) fun _ => Within.pure' trivial
    · exact Within.pure' trivial
  unfold assignMove
  refine Within.noexcept (Within.ite (Within.pure' trivial) ?_)
  refine Within.bindU (within_valueless (by usable)) fun b => Within.ite ?_ ?_
  · exact Within.bindU (within_reset tr TT hx) fun _ => hend
  · refine Within.bind (Within.getH hx) fun t ht => Within.bind (Within.getH hy) fun o ho => Within.ite ?_ ?_
    · exact Within.bindU (Within.setP hx ho) fun _ => Within.bindU (Within.setP hy ht) fun _ =>
        Within.bindU (within_reset tr TT hy) fun _ => hend
    · refine Within.bind (within_derefCB hy) fun q hq => ?_
      refine Within.bind (within_vmove hbp tr TT hq _) fun p hp => ?_
      exact Within.bindU (within_reset tr TT hx) fun _ => Within.bindU (Within.setP hx (by rintro q ⟨⟩; exact hp)) fun _ => hend

omit TT

theorem within_evalSrc {u : Src L X} (hU : ∀ z ∈ Spec.srcOperands u, F.U z) (hu : ∀ z, Spec.movedSrc u = some z → F.W z) :
    Within.Within F (FOk F) (evalSrc u : Prog L A R (PBody Ty V) (Fwd X)) := by
  cases u with
  | arg x => exact Within.pure' trivial
  | lval y =>
    have hy : F.U y := hU y (by simp [Spec.srcOperands])
    exact Within.bindU (within_deref' (by usable)) fun _ => Within.pure' trivial
  | rval y => exact Within.bind (within_deref hbp (hu y rfl)) fun _ h => Within.pure' h

variable (Q : PSpec Ty V X)

theorem within_construct (a : Option A) {c : PCtor L Ty X}
    (hop : ∀ z ∈ Spec.poperands (.make x a c : POp L A Ty V X), F.U z)
    (hc : ∀ z, Spec.pmovedFrom (.make x a c : POp L A Ty V X) = some z → F.W z) :
    Within.Within F (HOk F) (construct tr (plainP Q) a c) := by
  have TT := within_plainP (F := F) hbp Q
  have hm : ∀ (b : A) (ty : Ty) (k : A → Addr → Prog L A R (PBody Ty V) Unit), (∀ b p, ¬ F.G p → Within.Within F Any (k b p)) →
      Within.Within F (HOk F) (do
        let p ← createControlBlock tr (plainP Q) ty b k
        pure ⟨some p, b⟩) := fun b ty k hk =>
    Within.bind (within_createControlBlock hbp tr TT ty b hk) fun p hp => Within.pure' (by rintro q ⟨⟩; exact hp)
  cases a <;> cases c <;> simp only [construct]
  · exact hm _ _ _ fun _ _ hp => TT.make _ _ hp
  · exact Within.bind (within_evalSrc hbp (fun z hz => hop z (by simp [Spec.poperands, hz])) fun z hz => hc z (Verif.Polymorphic.pmoved_from hz)) fun _ hu => hm _ _ _ fun _ _ hp => TT.makeFwd _ hp hu
  · exact hm _ _ _ fun _ _ hp => TT.make _ _ hp
  · exact hm _ _ _ fun _ _ hp => TT.make _ _ hp
  · exact hm _ _ _ fun _ _ hp => TT.make _ _ hp
  · exact Within.bind (within_evalSrc hbp (fun z hz => hop z (by simp [Spec.poperands, hz])) fun z hz => hc z (Verif.Polymorphic.pmoved_from hz)) fun _ hu => hm _ _ _ fun _ _ hp => TT.makeFwd _ hp hu
  · exact hm _ _ _ fun _ _ hp => TT.make _ _ hp
  · exact hm _ _ _ fun _ _ hp => TT.make _ _ hp

theorem within_step {o : POp L A Ty V X} (hop : ∀ z ∈ Spec.poperands o, F.U z) (ho : ∀ z ∈ Spec.pchanges o, F.W z) : Within.Within F Any (step tr (plainP Q) o) := by
  have TT := within_plainP (F := F) hbp Q
  have hmv : ∀ z, Spec.pmovedFrom o = some z → F.W z := fun z hz => ho z (by simp [Spec.pchanges, hz])
  have hrb : ∀ z ∈ Spec.prebinds o, F.W z := fun z hz => ho z (by simp [Spec.pchanges, hz])
  cases o with
  | make x a c =>
    have hx : F.W x := hrb x (by simp [Spec.prebinds])
    exact Within.bind (within_construct hbp tr Q a hop hmv) fun _ hh => Within.bindU (Within.emplace hx hh) fun _ => Within.pure' trivial
  | copy x y =>
    have hy : F.U y := hop y (by simp [Spec.poperands])
    have hx : F.W x := hrb x (by simp [Spec.prebinds])
    exact Within.bind (within_ctorCopy hbp tr TT hy) fun _ hh => Within.bindU (Within.emplace hx hh) fun _ => Within.pure' trivial
  | copyA x a y =>
    have hy : F.U y := hop y (by simp [Spec.poperands])
    have hx : F.W x := hrb x (by simp [Spec.prebinds])
    exact Within.bind (within_ctorCopyA hbp tr TT a hy) fun _ hh => Within.bindU (Within.emplace hx hh) fun _ => Within.pure' trivial
  | move x y =>
    have hx : F.W x := hrb x (by simp [Spec.prebinds])
    have hy : F.W y := hrb y (by simp [Spec.prebinds])
    exact Within.bind (within_ctorMove hbp tr TT hy) fun _ hh => Within.bindU (Within.emplace hx hh) fun _ => Within.pure' trivial
  | moveA x a y =>
    have hx : F.W x := hrb x (by simp [Spec.prebinds])
    have hy : F.W y := hrb y (by simp [Spec.prebinds])
    exact Within.bind (within_ctorMoveA hbp tr TT a hy) fun _ hh => Within.bindU (Within.emplace hx hh) fun _ => Within.pure' trivial
  | destroy x =>
    have hx : F.W x := hrb x (by simp [Spec.prebinds])
    exact Within.bindU (within_dtor tr TT hx) fun _ => Within.pure' trivial
  | assignCopy x y =>
    have hy : F.U y := hop y (by simp [Spec.poperands])
    have hx : F.W x := hrb x (by simp [Spec.prebinds])
    exact Within.bindU (within_assignCopy hbp tr TT hx hy) fun _ => Within.pure' trivial
  | assignMove x y =>
    have hx : F.W x := hrb x (by simp [Spec.prebinds])
    have hy : F.W y := hrb y (by simp [Spec.prebinds])
    exact Within.bindU (within_assignMove hbp tr TT hx hy) fun _ => Within.pure' trivial
  | deref x =>
    have hx : F.U x := hop x (by simp [Spec.poperands])
    exact Within.bindU (within_deref' (by usable)) fun _ => Within.bindU (within_readAny _) fun _ => Within.pure' trivial
  | arrow x =>
    have hx : F.U x := hop x (by simp [Spec.poperands])
    exact Within.bindU (within_deref' (by usable)) fun _ => Within.bindU (within_readAny _) fun _ => Within.pure' trivial
  | modify x f =>
    have hx : F.W x := ho x (by simp [Spec.pchanges])
    exact Within.bind (within_deref hbp hx) fun _ hp => Within.bindU (within_readAny _) fun _ =>
      Within.bindU (within_writeU hbp hp _) fun _ => Within.pure' trivial
  | valueless x =>
    have hx : F.U x := hop x (by simp [Spec.poperands])
    exact Within.bindU (within_valueless (by usable)) fun _ => Within.pure' trivial
  | getAllocator x =>
    have hx : F.U x := hop x (by simp [Spec.poperands])
    exact Within.bindU (within_getAllocator (by usable)) fun _ => Within.pure' trivial
  | swap x y =>
    have hx : F.W x := hrb x (by simp [Spec.prebinds])
    have hy : F.W y := hrb y (by simp [Spec.prebinds])
    exact Within.bindU (within_swap tr hx hy) fun _ => Within.pure' trivial
  | friendSwap x y =>
    have hx : F.W x := hrb x (by simp [Spec.prebinds])
    have hy : F.W y := hrb y (by simp [Spec.prebinds])
    exact Within.bindU (within_friendSwap tr hx hy) fun _ => Within.pure' trivial

end
end Fine.Polymorphic

end Verif
