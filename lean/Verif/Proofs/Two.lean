import Verif.Spec.Footprint

/-!
Two runs of the same code, in states that agree on some objects `D` and on the storage outside `G`.
-/

set_option autoImplicit false
set_option linter.unusedSectionVars false
set_option linter.unusedSimpArgs false

namespace Verif

/-- The objects that may be used, the storage that may not, the pointers inside blocks, and the states at the start. -/
structure Two.Frame (L A R B : Type) where
  D : L → Prop
  G : Addr → Prop
  bp : B → Option Addr
  i : St L A R B
  j : St L A R B

namespace Two
variable {L A R B X α β : Type} [DecidableEq L] [DecidableEq R] [Body B]

/-- The states correspond, and the rest is as at the start. -/
structure Par (F : Frame L A R B) (s t : St L A R B) : Prop where
  env : t.env = s.env
  ai : t.ai = s.ai
  ti : t.ti = s.ti
  pick : ∀ n, ¬ F.G (s.env.pick n)
  hs : ∀ l, F.D l → t.hs l = s.hs l
  heap : ∀ p, ¬ F.G p → t.heap p = s.heap p
  own : ∀ l h p, F.D l → s.hs l = some h → h.p = some p → ¬ F.G p
  body : ∀ p c r, ¬ F.G p → s.heap p = some c → F.bp c.body = some r → ¬ F.G r
  fhs : ∀ l, ¬ F.D l → s.hs l = F.i.hs l ∧ t.hs l = F.j.hs l
  fheap : ∀ p, F.G p → s.heap p = F.i.heap p ∧ t.heap p = F.j.heap p
  trace : ∃ w, s.trace = F.i.trace ++ w ∧ t.trace = F.j.trace ++ w ∧ ∀ ev ∈ w, ∀ p, ev.about p → ¬ F.G p

/-- The outcomes correspond. -/
def ParRes (F : Frame L A R B) (post : α → Prop) : Res (St L A R B) α → Res (St L A R B) α → Prop
  | .ok a s, .ok b t => b = a ∧ post a ∧ Par F s t
  | .threw e s, .threw f t => f = e ∧ Par F s t
  | .terminated, .terminated => True
  | .ub u, .ub v => v = u
  | .diverged, .diverged => True
  | _, _ => False

/-- The code behaves the same in corresponding states, and its result satisfies `post`. -/
def Two (F : Frame L A R B) (post : α → Prop) (m : M (St L A R B) α) : Prop :=
  ∀ s t, Par F s t → ParRes F post (m s) (m t)

/-- No condition. -/
abbrev Any {α : Type} : α → Prop := fun _ => True

/-- The object does not point into `G`. -/
abbrev HOk (F : Frame L A R B) : Handle A → Prop := fun h => ∀ p, h.p = some p → ¬ F.G p

/-- The address is not in `G`. -/
abbrev AOk (F : Frame L A R B) : Addr → Prop := fun p => ¬ F.G p

/-- The forwarded argument is not in `G`. -/
def FOk (F : Frame L A R B) : Fwd X → Prop
  | .arg _ => True
  | .lval q => ¬ F.G q
  | .rval q => ¬ F.G q

variable {F : Frame L A R B} {post : α → Prop} {post' : β → Prop}

theorem pure' {a : α} (h : post a) : Two F post (pure a) := fun _ _ P => ⟨rfl, h, P⟩
theorem throwE (e : Exn) : Two F post (M.throwE e : M (St L A R B) α) := fun _ _ P => ⟨rfl, P⟩
theorem undef (u : UB) : Two F post (M.undef u : M (St L A R B) α) := fun _ _ _ => rfl

theorem bind {m : M (St L A R B) α} {f : α → M (St L A R B) β} (hm : Two F post m)
    (hf : ∀ a, post a → Two F post' (f a)) : Two F post' (m >>= f) := by
  intro s t P
  have := hm s t P
  show ParRes F post' (M.andThen m f s) (M.andThen m f t)
  unfold M.andThen
  revert this
  cases m s <;> cases m t <;> simp only [ParRes, false_implies]
  · rintro ⟨rfl, h, P'⟩; exact hf _ h _ _ P'
  · exact id
  · exact id
  · exact id
  · exact id

theorem bindU {m : M (St L A R B) Unit} {f : Unit → M (St L A R B) β} (hm : Two F Any m)
    (hf : ∀ a, Two F post' (f a)) : Two F post' (m >>= f) := bind hm fun a _ => hf a

theorem onThrow {m : M (St L A R B) α} {c : M (St L A R B) Unit} (hm : Two F post m) (hc : Two F Any c) :
    Two F post (M.onThrow m c) := by
  intro s t P
  have := hm s t P
  unfold M.onThrow
  revert this
  cases m s <;> cases m t <;> simp only [ParRes, false_implies]
  · exact id
  · rename_i e s' f t'
    rintro ⟨rfl, P'⟩
    have := hc s' t' P'
    revert this
    cases c s' <;> cases c t' <;> simp only [ParRes, false_implies]
    · rintro ⟨-, -, P''⟩; exact ⟨trivial, P''⟩
    · exact id
    · exact id
    · exact id
    · exact id
  · exact id
  · exact id
  · exact id

theorem noexcept {b : Bool} {m : M (St L A R B) α} (hm : Two F post m) : Two F post (M.noexceptIf b m) := by
  intro s t P
  have := hm s t P
  unfold M.noexceptIf
  revert this
  cases m s <;> cases m t <;> simp only [ParRes, false_implies]
  · exact id
  · cases b <;> simp
  · exact id
  · exact id
  · exact id

theorem ite {c : Prop} [Decidable c] {m n : M (St L A R B) α} (hm : Two F post m) (hn : Two F post n) :
    Two F post (if c then m else n) := by split <;> assumption

/-! The primitives. -/

theorem Par.log {s t : St L A R B} (P : Par F s t) (ev : Ev R) (h : ∀ p, ev.about p → ¬ F.G p) :
    ∃ w, s.trace ++ [ev] = F.i.trace ++ w ∧ t.trace ++ [ev] = F.j.trace ++ w ∧
      ∀ ev ∈ w, ∀ p, ev.about p → ¬ F.G p := by
  obtain ⟨w, h1, h2, h3⟩ := P.trace
  refine ⟨w ++ [ev], by simp [h1], by simp [h2], ?_⟩
  intro ev' hev'
  rcases List.mem_append.1 hev' with h' | h'
  · exact h3 _ h'
  · simp at h'; subst h'; exact h

/-- Change an object in `D`. -/
theorem Par.setH {s t : St L A R B} (P : Par F s t) {l : L} (hl : F.D l) {h : Option (Handle A)}
    (hh : ∀ k p, h = some k → k.p = some p → ¬ F.G p) :
    Par F { s with hs := upd s.hs l h } { t with hs := upd t.hs l h } := by
  refine { P with hs := ?_, own := ?_, fhs := ?_ }
  · intro l' hl'; simp only [upd]; split
    · rfl
    · exact P.hs _ hl'
  · intro l' k p hl' hk hp
    simp only [upd] at hk
    split at hk
    · exact hh k p hk hp
    · exact P.own _ _ _ hl' hk hp
  · intro l' hl'
    have : l' ≠ l := fun e => hl' (e ▸ hl)
    simp only [upd, this, if_false]
    exact P.fhs _ hl'

/-- Change a block outside `G`. -/
theorem Par.setB {s t : St L A R B} (P : Par F s t) {q : Addr} (hq : ¬ F.G q) {c : Option (Cell R B)}
    (hc : ∀ k r, c = some k → F.bp k.body = some r → ¬ F.G r) {ts tt : List (Ev R)}
    (ht : ∃ w, ts = F.i.trace ++ w ∧ tt = F.j.trace ++ w ∧ ∀ ev ∈ w, ∀ p, ev.about p → ¬ F.G p) :
    Par F { s with heap := upd s.heap q c, trace := ts } { t with heap := upd t.heap q c, trace := tt } := by
  refine { P with heap := ?_, body := ?_, fheap := ?_, trace := ht }
  · intro p hp; simp only [upd]; split
    · rfl
    · exact P.heap _ hp
  · intro p k r hp hk hr
    simp only [upd] at hk
    split at hk
    · exact hc k r hk hr
    · exact P.body _ _ _ hp hk hr
  · intro p hp
    have : p ≠ q := fun e => hq (e ▸ hp)
    simp only [upd, this, if_false]
    exact P.fheap _ hp

theorem emit {ev : Ev R} (h : ∀ p, ev.about p → ¬ F.G p) : Two F Any (emit ev) := fun _ _ P =>
  ⟨rfl, trivial, { P with trace := P.log ev h }⟩

theorem choose : Two F Any (choose : M (St L A R B) Nat) := by
  intro s t P
  exact ⟨by rw [P.env, P.ti], trivial, { P with ti := by simp [P.ti] }⟩

theorem getH {l : L} (hl : F.D l) : Two F (HOk F) (getH l) := by
  intro s t P
  unfold Verif.getH
  rw [P.hs l hl]
  cases h : s.hs l with
  | none => rfl
  | some k => exact ⟨rfl, fun p hp => P.own l k p hl h hp, P⟩

theorem setP {l : L} (hl : F.D l) {p : Option Addr} (hp : ∀ q, p = some q → ¬ F.G q) :
    Two F Any (setP l p : M (St L A R B) Unit) := by
  intro s t P
  unfold Verif.setP
  rw [P.hs l hl]
  cases h : s.hs l with
  | none => rfl
  | some k => exact ⟨rfl, trivial, P.setH hl (by rintro k' q ⟨⟩ hq; exact hp q hq)⟩

theorem setAlloc {l : L} (hl : F.D l) (a : A) : Two F Any (setAlloc l a : M (St L A R B) Unit) := by
  intro s t P
  unfold Verif.setAlloc
  rw [P.hs l hl]
  cases h : s.hs l with
  | none => rfl
  | some k => exact ⟨rfl, trivial, P.setH hl (by rintro k' q ⟨⟩ hq; exact P.own _ _ _ hl h hq)⟩

theorem emplace {l : L} (hl : F.D l) {h : Handle A} (hh : HOk F h) :
    Two F Any (emplace l h : M (St L A R B) Unit) := by
  intro s t P
  unfold Verif.emplace
  rw [P.hs l hl]
  cases s.hs l with
  | some _ => rfl
  | none => exact ⟨rfl, trivial, P.setH hl (by rintro k' q ⟨⟩ hq; exact hh q hq)⟩

theorem endLife {l : L} (hl : F.D l) : Two F Any (endLife l : M (St L A R B) Unit) := by
  intro s t P
  unfold Verif.endLife
  rw [P.hs l hl]
  cases s.hs l with
  | none => rfl
  | some _ => exact ⟨rfl, trivial, P.setH hl (by rintro k' q ⟨⟩)⟩

theorem allocate (hraw : F.bp Body.raw = none) (r : R) : Two F (AOk F) (allocate r) := by
  intro s t P
  have hp := P.pick s.ai
  unfold Verif.allocate
  simp only [P.env, P.ai, P.heap _ hp]
  cases s.env.fail s.ai with
  | true => exact ⟨rfl, { P with env := rfl, ai := rfl }⟩
  | false =>
    simp only [Bool.false_eq_true, if_false]
    cases s.heap (s.env.pick s.ai) with
    | some c => exact ⟨rfl, { P with env := rfl, ai := rfl }⟩
    | none =>
      refine ⟨rfl, hp, ?_⟩
      have := P.setB hp (c := some ⟨r, Body.raw⟩) (by rintro k r' ⟨⟩ hr; simp [hraw] at hr)
        (P.log (.alloc r (s.env.pick s.ai)) (by intro p h; simp only [Ev.about] at h; rw [h]; exact hp))
      exact { this with env := rfl, ai := rfl }

theorem deallocate (r : R) {p : Addr} (hp : ¬ F.G p) : Two F Any (deallocate r p : M (St L A R B) Unit) := by
  intro s t P
  unfold Verif.deallocate
  rw [P.heap p hp]
  cases s.heap p with
  | none => rfl
  | some c =>
    simp only
    split
    · rfl
    · split
      · rfl
      · exact ⟨rfl, trivial, P.setB hp (by rintro k r' ⟨⟩)
          (P.log (.dealloc r p) (by intro q h; simp only [Ev.about] at h; rw [h]; exact hp))⟩

theorem readBody {p : Addr} (hp : ¬ F.G p) :
    Two F (fun b => ∀ r, F.bp b = some r → ¬ F.G r) (readBody p : M (St L A R B) B) := by
  intro s t P
  unfold Verif.readBody
  rw [P.heap p hp]
  cases h : s.heap p with
  | none => rfl
  | some c => exact ⟨rfl, fun r hr => P.body _ _ _ hp h hr, P⟩

theorem writeBody {p : Addr} (hp : ¬ F.G p) {b : B} (hb : ∀ r, F.bp b = some r → ¬ F.G r) :
    Two F Any (writeBody p b : M (St L A R B) Unit) := by
  intro s t P
  unfold Verif.writeBody
  rw [P.heap p hp]
  cases s.heap p with
  | none => rfl
  | some c => exact ⟨rfl, trivial, P.setB hp (by rintro k r' ⟨⟩ hr; exact hb _ hr) P.trace⟩

/-- The operations of the owned type use only the objects they are given. -/
structure TTwo (F : Frame L A R B) (T : TOps (St L A R B) A X) : Prop where
  make : ∀ {a d} xs, ¬ F.G d → Two F Any (T.make a d xs)
  copyCtor : ∀ {a d q}, ¬ F.G d → ¬ F.G q → Two F Any (T.copyCtor a d q)
  moveCtor : ∀ {a d q}, ¬ F.G d → ¬ F.G q → Two F Any (T.moveCtor a d q)
  copyAssign : ∀ {d q}, ¬ F.G d → ¬ F.G q → Two F Any (T.copyAssign d q)
  moveAssign : ∀ {d q}, ¬ F.G d → ¬ F.G q → Two F Any (T.moveAssign d q)
  assignArg : ∀ {d} x, ¬ F.G d → Two F Any (T.assignArg d x)
  dtor : ∀ a {d}, ¬ F.G d → Two F Any (T.dtor a d)

theorem TTwo.makeFwd {T : TOps (St L A R B) A X} (h : TTwo F T) {a : A} {d : Addr} (hd : ¬ F.G d) {u : Fwd X} (hu : FOk F u) :
    Two F Any (T.makeFwd a d u) := by
  cases u
  · exact h.make _ hd
  · exact h.copyCtor hd hu
  · exact h.moveCtor hd hu

theorem TTwo.assignFwd {T : TOps (St L A R B) A X} (h : TTwo F T) {d : Addr} (hd : ¬ F.G d) {u : Fwd X} (hu : FOk F u) :
    Two F Any (T.assignFwd d u) := by
  cases u
  · exact h.assignArg _ hd
  · exact h.copyAssign hd hu
  · exact h.moveAssign hd hu

end Two

/-! `indirect.h` -/
namespace Indirect
open Two (Par ParRes Any HOk AOk FOk TTwo Frame)
section
variable {L A R B V X : Type} [DecidableEq L] [DecidableEq R] [Body B]
variable {F : Two.Frame L A R B} (tr : ATraits A R) {T : TOps (St L A R B) A X} (hraw : F.bp Body.raw = none)
  (TT : TTwo F T) {x y : L}

theorem two_valueless (hx : F.D x) : Two.Two F Any (valueless x) :=
  Two.bind (Two.getH hx) fun _ _ => Two.pure' trivial

theorem two_getAllocator (hx : F.D x) : Two.Two F Any (getAllocator x) :=
  Two.bind (Two.getH hx) fun _ _ => Two.pure' trivial

theorem two_deref (hx : F.D x) : Two.Two F (AOk F) (deref x) := by
  refine Two.bind (Two.getH hx) fun h hh => ?_
  split
  · rename_i p hp; exact Two.pure' (hh p hp)
  · exact Two.undef _

theorem two_arrow (hx : F.D x) : Two.Two F (AOk F) (arrow x) := two_deref hx

include hraw in
theorem two_constructFrom (a : A) {k : A → Addr → M (St L A R B) Unit} (hk : ∀ b p, ¬ F.G p → Two.Two F Any (k b p)) :
    Two.Two F (AOk F) (constructFrom tr a k) := by
  unfold constructFrom
  refine Two.bind (Two.allocate hraw _) fun p hp => ?_
  refine Two.bindU (Two.onThrow (hk _ p hp) (Two.deallocate _ hp)) fun _ => ?_
  exact Two.pure' hp

theorem two_swap (hx : F.D x) (hy : F.D y) : Two.Two F Any (swap tr x y) := by
  unfold swap
  refine Two.noexcept (Two.bind (Two.getH hx) fun t ht => Two.bind (Two.getH hy) fun o ho => ?_)
  refine Two.ite ?_ (Two.ite ?_ (Two.undef _))
  · exact Two.bindU (Two.setAlloc hx _) fun _ => Two.bindU (Two.setAlloc hy _) fun _ =>
      Two.bindU (Two.setP hx ho) fun _ => Two.setP hy ht
  · exact Two.bindU (Two.setP hx ho) fun _ => Two.setP hy ht

theorem two_friendSwap (hx : F.D x) (hy : F.D y) : Two.Two F Any (friendSwap tr x y) :=
  Two.noexcept (two_swap tr hx hy)

include TT

theorem two_reset (hx : F.D x) : Two.Two F Any (reset tr T x) := by
  unfold reset destroyWith
  refine Two.noexcept (Two.bind (Two.getH hx) fun h hh => ?_)
  split
  · exact Two.pure' trivial
  · rename_i p hp
    exact Two.bindU (Two.bindU (TT.dtor _ (hh p hp)) fun _ => Two.deallocate _ (hh p hp)) fun _ =>
      Two.setP hx (by simp)

theorem two_dtor (hx : F.D x) : Two.Two F Any (dtor tr T x) :=
  Two.noexcept (Two.bindU (two_reset tr TT hx) fun _ => Two.endLife hx)

include hraw

theorem two_ctorCopyA (a : A) (hy : F.D y) : Two.Two F (HOk F) (ctorCopyA tr T a y) := by
  unfold ctorCopyA
  refine Two.bind (two_valueless hy) fun b _ => Two.ite (Two.pure' (fun _ h => nomatch h)) ?_
  refine Two.bind (two_deref hy) fun q hq => ?_
  refine Two.bind (two_constructFrom tr hraw a fun _ p hp => TT.copyCtor hp hq) fun p hp => Two.pure' ?_
  rintro p' ⟨⟩; exact hp

theorem two_ctorCopy (hy : F.D y) : Two.Two F (HOk F) (ctorCopy tr T y) :=
  Two.bind (Two.getH hy) fun _ _ => two_ctorCopyA tr hraw TT _ hy

theorem two_ctorMoveA (a : A) (hy : F.D y) : Two.Two F (HOk F) (ctorMoveA tr T a y) := by
  unfold ctorMoveA
  refine Two.noexcept (Two.bind (Two.getH hy) fun o ho => ?_)
  refine Two.ite ?_ (Two.ite ?_ ?_)
  · exact Two.bindU (Two.setP hy (by simp)) fun _ => Two.pure' ho
  · exact Two.bindU (Two.setP hy (by simp)) fun _ => Two.pure' ho
  · refine Two.bind (two_valueless hy) fun b _ => Two.ite ?_ (Two.pure' (fun _ h => nomatch h))
    refine Two.bind (two_deref hy) fun q hq => ?_
    refine Two.bind (two_constructFrom tr hraw a fun _ p hp => TT.moveCtor hp hq) fun p hp => Two.pure' ?_
    rintro p' ⟨⟩; exact hp

theorem two_ctorMove (hy : F.D y) : Two.Two F (HOk F) (ctorMove tr T y) :=
  Two.noexcept (Two.bind (Two.getH hy) fun _ _ => two_ctorMoveA tr hraw TT _ hy)

theorem two_assignCopy (hx : F.D x) (hy : F.D y) : Two.Two F Any (assignCopy tr T x y) := by
  have hend : Two.Two F Any (do
      if tr.pocca then
        let o ← getH y
        setAlloc x o.alloc
      pure x : M (St L A R B) L) := by
    refine Two.ite ?_ ?_
    · exact Two.bind (Two.getH hy) fun _ _ => Two.bindU (Two.setAlloc hx _) fun _ => Two.pure' trivial
    · exact Two.pure' trivial
  unfold assignCopy
  refine Two.ite (Two.pure' trivial) ?_
  refine Two.bind (two_valueless hy) fun b _ => Two.ite ?_ ?_
  · exact Two.bindU (two_reset tr TT hx) fun _ => hend
  · refine Two.bind (Two.getH hx) fun t ht => Two.bind (Two.getH hy) fun o ho => Two.ite ?_ ?_
    · exact Two.bind (two_deref hx) fun d hd => Two.bind (two_deref hy) fun q hq =>
        Two.bindU (TT.copyAssign hd hq) fun _ => hend
    · refine Two.bind (two_deref hy) fun q hq => ?_
      refine Two.bind (two_constructFrom tr hraw _ fun _ p hp => TT.copyCtor hp hq) fun p hp => ?_
      exact Two.bindU (two_reset tr TT hx) fun _ => Two.bindU (Two.setP hx (by rintro q ⟨⟩; exact hp)) fun _ => hend

theorem two_assignMove (hx : F.D x) (hy : F.D y) : Two.Two F Any (assignMove tr T x y) := by
  have hend : Two.Two F Any (do
      if tr.pocma then
        let o ← getH y
        setAlloc x o.alloc
      pure x : M (St L A R B) L) := by
    refine Two.ite ?_ ?_
    · exact Two.bind (Two.getH hy) fun _ _ => Two.bindU (Two.setAlloc hx _) fun _ => Two.pure' trivial
    · exact Two.pure' trivial
  unfold assignMove
  refine Two.noexcept (Two.ite (Two.pure' trivial) ?_)
  refine Two.bind (two_valueless hy) fun b _ => Two.ite ?_ ?_
  · exact Two.bindU (two_reset tr TT hx) fun _ => hend
  · refine Two.bind (Two.getH hx) fun t ht => Two.bind (Two.getH hy) fun o ho => Two.ite ?_ ?_
    · exact Two.bindU (Two.setP hx ho) fun _ => Two.bindU (Two.setP hy ht) fun _ =>
        Two.bindU (two_reset tr TT hy) fun _ => hend
    · refine Two.bind (two_deref hy) fun q hq => ?_
      refine Two.bind (two_constructFrom tr hraw _ fun _ p hp => TT.moveCtor hp hq) fun p hp => ?_
      exact Two.bindU (two_reset tr TT hx) fun _ => Two.bindU (Two.setP hx (by rintro q ⟨⟩; exact hp)) fun _ => hend

theorem two_assignFrom (hx : F.D x) {u : Fwd X} (hu : FOk F u) : Two.Two F Any (assignFrom tr T x u) := by
  unfold assignFrom
  refine Two.bind (two_valueless hx) fun b _ => Two.ite ?_ ?_
  · refine Two.bind (Two.getH hx) fun t ht => ?_
    refine Two.bind (two_constructFrom tr hraw _ fun _ p hp => TT.makeFwd hp hu) fun p hp => ?_
    exact Two.bindU (Two.setP hx (by rintro q ⟨⟩; exact hp)) fun _ => Two.pure' trivial
  · exact Two.bind (two_deref hx) fun d hd => Two.bindU (TT.assignFwd hd hu) fun _ => Two.pure' trivial

end

section
variable {L A R V X : Type} [DecidableEq L] [DecidableEq R]
variable {F : Two.Frame L A R (Obj V)} (hbp : ∀ b, F.bp b = none)
include hbp

theorem two_readObj {p : Addr} (hp : ¬ F.G p) : Two.Two F Any (readObj p) := by
  refine Two.bind (Two.readBody hp) fun b _ => ?_
  split
  · exact Two.pure' trivial
  · exact Two.undef _

theorem two_writeObj {p : Addr} (hp : ¬ F.G p) (v : V) : Two.Two F Any (writeObj p v) :=
  Two.bind (two_readObj hbp hp) fun _ _ => Two.writeBody hp (by simp [hbp])

theorem two_beginObj {p : Addr} (hp : ¬ F.G p) (v : V) {how : How}
    (hh : ∀ q, how = .copyOf q ∨ how = .moveOf q → ¬ F.G q) : Two.Two F Any (beginObj p v how) := by
  intro s t P
  unfold beginObj
  rw [P.heap p hp]
  split
  · refine ⟨rfl, trivial, P.setB hp (by simp [hbp]) (P.log (.construct p how) ?_)⟩
    rintro q (rfl | h)
    · exact hp
    · exact hh q h
  · rfl

theorem two_finish {p : Addr} (hp : ¬ F.G p) (r : Except Exn V) {how : How}
    (hh : ∀ q, how = .copyOf q ∨ how = .moveOf q → ¬ F.G q) : Two.Two F Any (finish p how r) := by
  cases r
  · exact Two.throwE _
  · exact two_beginObj hbp hp _ hh

theorem two_rethrow (r : Option Exn) : Two.Two F Any (rethrow r) := by
  cases r
  · exact Two.pure' trivial
  · exact Two.throwE _

theorem two_plain (T : TSpec V X) : TTwo F (plain T : TOps (St L A R (Obj V)) A X) where
  make xs hd := Two.bind Two.choose fun _ _ => two_finish hbp hd _ (by simp)
  copyCtor hd hq := Two.bind (two_readObj hbp hq) fun _ _ => Two.bind Two.choose fun _ _ =>
    two_finish hbp hd _ (by rintro _ (h | h) <;> cases h; exact hq)
  moveCtor hd hq := Two.bind (two_readObj hbp hq) fun _ _ => Two.bind Two.choose fun _ _ =>
    Two.bindU (two_writeObj hbp hq _) fun _ => two_finish hbp hd _ (by rintro _ (h | h) <;> cases h; exact hq)
  copyAssign hd hq := Two.bind (two_readObj hbp hd) fun _ _ => Two.bind (two_readObj hbp hq) fun _ _ =>
    Two.bind Two.choose fun _ _ => Two.bindU (Two.emit (by rintro p (rfl | h | h)
                                                           · exact hd
                                                           · cases h; exact hq
                                                           · cases h)) fun _ =>
    Two.bindU (two_writeObj hbp hd _) fun _ => two_rethrow hbp _
  moveAssign hd hq := Two.bind (two_readObj hbp hd) fun _ _ => Two.bind (two_readObj hbp hq) fun _ _ =>
    Two.bind Two.choose fun _ _ => Two.bindU (Two.emit (by rintro p (rfl | h | h)
                                                           · exact hd
                                                           · cases h
                                                           · cases h; exact hq)) fun _ =>
    Two.bindU (two_writeObj hbp hq _) fun _ => Two.bindU (two_writeObj hbp hd _) fun _ => two_rethrow hbp _
  assignArg x hd := Two.bind (two_readObj hbp hd) fun _ _ =>
    Two.bind Two.choose fun _ _ => Two.bindU (Two.emit (by rintro p (rfl | h | h)
                                                           · exact hd
                                                           · cases h
                                                           · cases h)) fun _ =>
    Two.bindU (two_writeObj hbp hd _) fun _ => two_rethrow hbp _
  dtor _ _ hd := Two.bind (two_readObj hbp hd) fun _ _ => Two.bindU (Two.writeBody hd (by simp [hbp])) fun _ =>
    Two.emit (by rintro p rfl; exact hd)

omit hbp in
theorem two_evalSrc {u : Src L X} (hu : ∀ z ∈ Spec.srcOperands u, F.D z) :
    Two.Two F (FOk F) (evalSrc u : M (St L A R (Obj V)) (Fwd X)) := by
  cases u with
  | arg x => exact Two.pure' trivial
  | lval y => exact Two.bind (two_deref (hu y (by simp [Spec.srcOperands]))) fun _ h => Two.pure' h
  | rval y => exact Two.bind (two_deref (hu y (by simp [Spec.srcOperands]))) fun _ h => Two.pure' h

variable (tr : ATraits A R) (T : TSpec V X)

theorem two_construct (a : Option A) {c : Ctor L X} {x : L} (hc : ∀ z ∈ Spec.operands (.make x a c : Op L A V X), F.D z) :
    Two.Two F (HOk F) (construct tr (plain T) a c) := by
  have TT := two_plain (F := F) hbp T
  have hr : F.bp Body.raw = none := hbp _
  have hm : ∀ (b : A) (k : A → Addr → M (St L A R (Obj V)) Unit), (∀ b p, ¬ F.G p → Two.Two F Any (k b p)) →
      Two.Two F (HOk F) (do
        let p ← constructFrom tr b k
        pure ⟨some p, b⟩) := fun b k hk =>
    Two.bind (two_constructFrom tr hr b hk) fun p hp => Two.pure' (by rintro q ⟨⟩; exact hp)
  cases a <;> cases c <;> simp only [construct]
  · exact hm _ _ fun _ _ hp => TT.make _ hp
  · exact Two.bind (two_evalSrc fun z hz => hc z (by simp [Spec.operands, hz])) fun _ hu => hm _ _ fun _ _ hp => TT.makeFwd hp hu
  · exact hm _ _ fun _ _ hp => TT.make _ hp
  · exact Two.bind (two_evalSrc fun z hz => hc z (by simp [Spec.operands, hz])) fun _ hu => hm _ _ fun _ _ hp => TT.makeFwd hp hu
  · exact hm _ _ fun _ _ hp => TT.make _ hp
  · exact hm _ _ fun _ _ hp => TT.make _ hp
  · exact Two.bind (two_evalSrc fun z hz => hc z (by simp [Spec.operands, hz])) fun _ hu => hm _ _ fun _ _ hp => TT.makeFwd hp hu
  · exact hm _ _ fun _ _ hp => TT.make _ hp
  · exact Two.bind (two_evalSrc fun z hz => hc z (by simp [Spec.operands, hz])) fun _ hu => hm _ _ fun _ _ hp => TT.makeFwd hp hu
  · exact hm _ _ fun _ _ hp => TT.make _ hp

theorem two_step {o : Op L A V X} (ho : ∀ z ∈ Spec.operands o, F.D z) : Two.Two F Any (step tr (plain T) o) := by
  have TT := two_plain (F := F) hbp T
  have hr : F.bp Body.raw = none := hbp _
  cases o with
  | make x a c =>
    have hx : F.D x := ho x (by cases c <;> simp [Spec.operands])
    exact Two.bind (two_construct hbp tr T a ho) fun _ hh => Two.bindU (Two.emplace hx hh) fun _ => Two.pure' trivial
  | copy x y =>
    have hx : F.D x := ho x (by simp [Spec.operands])
    have hy : F.D y := ho y (by simp [Spec.operands])
    exact Two.bind (two_ctorCopy tr hr TT hy) fun _ hh => Two.bindU (Two.emplace hx hh) fun _ => Two.pure' trivial
  | copyA x a y =>
    have hx : F.D x := ho x (by simp [Spec.operands])
    have hy : F.D y := ho y (by simp [Spec.operands])
    exact Two.bind (two_ctorCopyA tr hr TT a hy) fun _ hh => Two.bindU (Two.emplace hx hh) fun _ => Two.pure' trivial
  | move x y =>
    have hx : F.D x := ho x (by simp [Spec.operands])
    have hy : F.D y := ho y (by simp [Spec.operands])
    exact Two.bind (two_ctorMove tr hr TT hy) fun _ hh => Two.bindU (Two.emplace hx hh) fun _ => Two.pure' trivial
  | moveA x a y =>
    have hx : F.D x := ho x (by simp [Spec.operands])
    have hy : F.D y := ho y (by simp [Spec.operands])
    exact Two.bind (two_ctorMoveA tr hr TT a hy) fun _ hh => Two.bindU (Two.emplace hx hh) fun _ => Two.pure' trivial
  | destroy x =>
    have hx : F.D x := ho x (by simp [Spec.operands])
    exact Two.bindU (two_dtor tr TT hx) fun _ => Two.pure' trivial
  | assignCopy x y =>
    have hx : F.D x := ho x (by simp [Spec.operands])
    have hy : F.D y := ho y (by simp [Spec.operands])
    exact Two.bind (two_assignCopy tr hr TT hx hy) fun _ _ => Two.pure' trivial
  | assignMove x y =>
    have hx : F.D x := ho x (by simp [Spec.operands])
    have hy : F.D y := ho y (by simp [Spec.operands])
    exact Two.bind (two_assignMove tr hr TT hx hy) fun _ _ => Two.pure' trivial
  | assignFrom x u =>
    have hx : F.D x := ho x (by simp [Spec.operands])
    exact Two.bind (two_evalSrc fun z hz => ho z (by simp [Spec.operands, hz])) fun _ hu =>
      Two.bind (two_assignFrom tr hr TT hx hu) fun _ _ => Two.pure' trivial
  | deref x =>
    have hx : F.D x := ho x (by simp [Spec.operands])
    exact Two.bind (two_deref hx) fun _ hp => Two.bind (two_readObj hbp hp) fun _ _ => Two.pure' trivial
  | arrow x =>
    have hx : F.D x := ho x (by simp [Spec.operands])
    exact Two.bind (two_arrow hx) fun _ hp => Two.bind (two_readObj hbp hp) fun _ _ => Two.pure' trivial
  | modify x f =>
    have hx : F.D x := ho x (by simp [Spec.operands])
    exact Two.bind (two_deref hx) fun _ hp => Two.bind (two_readObj hbp hp) fun _ _ =>
      Two.bindU (two_writeObj hbp hp _) fun _ => Two.pure' trivial
  | valueless x =>
    have hx : F.D x := ho x (by simp [Spec.operands])
    exact Two.bind (two_valueless hx) fun _ _ => Two.pure' trivial
  | getAllocator x =>
    have hx : F.D x := ho x (by simp [Spec.operands])
    exact Two.bind (two_getAllocator hx) fun _ _ => Two.pure' trivial
  | swap x y =>
    have hx : F.D x := ho x (by simp [Spec.operands])
    have hy : F.D y := ho y (by simp [Spec.operands])
    exact Two.bindU (two_swap tr hx hy) fun _ => Two.pure' trivial
  | friendSwap x y =>
    have hx : F.D x := ho x (by simp [Spec.operands])
    have hy : F.D y := ho y (by simp [Spec.operands])
    exact Two.bindU (two_friendSwap tr hx hy) fun _ => Two.pure' trivial

end
end Indirect

/-! `polymorphic.h` -/
namespace Polymorphic
open Two (Par ParRes Any HOk AOk FOk Frame)
section
variable {L A R Ty V X : Type} [DecidableEq L] [DecidableEq R] [DecidableEq Ty]

/-- The pointer in a control block. -/
def cbPtr (b : PBody Ty V) : Option Addr := b.bind (·.p)

variable {F : Two.Frame L A R (PBody Ty V)} (hbp : F.bp = cbPtr)
include hbp

/-- The pointer in the control block is not in `G`. -/
abbrev COk (F : Frame L A R (PBody Ty V)) : CB Ty V → Prop := fun c => ∀ r, c.p = some r → ¬ F.G r

theorem two_readCB {q : Addr} (hq : ¬ F.G q) : Two.Two F (COk F) (readCB q) := by
  refine Two.bind (Two.readBody hq) fun b hb => ?_
  rw [hbp] at hb
  split
  · exact Two.pure' fun r hr => hb r (by simp [cbPtr, hr])
  · exact Two.undef _

theorem two_readAny {q : Addr} (hq : ¬ F.G q) : Two.Two F Any (readAny q) := by
  refine Two.bind (two_readCB hbp hq) fun c _ => ?_
  split
  · exact Two.pure' trivial
  · exact Two.undef _

theorem two_readU (ty : Ty) {q : Addr} (hq : ¬ F.G q) : Two.Two F Any (readU ty q) := by
  refine Two.bind (two_readCB hbp hq) fun c _ => ?_
  split
  · exact Two.ite (Two.pure' trivial) (Two.undef _)
  · exact Two.undef _

theorem two_writeU {q : Addr} (hq : ¬ F.G q) (v : V) : Two.Two F Any (writeU q v) := by
  refine Two.bind (two_readCB hbp hq) fun c hc => ?_
  split
  · exact Two.writeBody hq (by rw [hbp]; exact hc)
  · exact Two.undef _

theorem two_beginU (ty : Ty) {q : Addr} (hq : ¬ F.G q) (v : V) {how : How}
    (hh : ∀ q, how = .copyOf q ∨ how = .moveOf q → ¬ F.G q) : Two.Two F Any (beginU ty q v how) := by
  intro s t P
  unfold beginU
  rw [P.heap q hq]
  split
  · rename_i r t' p hs
    split
    · refine ⟨rfl, trivial, P.setB hq ?_ (P.log (.construct q how) ?_)⟩
      · rintro k r' ⟨⟩ hr
        rw [hbp] at hr
        exact P.body q _ r' hq hs (by rw [hbp]; exact hr)
      · rintro q' (rfl | h)
        · exact hq
        · exact hh q' h
    · rfl
  · rfl

theorem two_finishU (ty : Ty) {q : Addr} (hq : ¬ F.G q) (r : Except Exn V) {how : How}
    (hh : ∀ q, how = .copyOf q ∨ how = .moveOf q → ¬ F.G q) : Two.Two F Any (finishU ty q how r) := by
  cases r
  · exact Two.throwE _
  · exact two_beginU hbp ty hq _ hh

theorem two_beginCB (ty : Ty) {q : Addr} (hq : ¬ F.G q) : Two.Two F Any (beginCB ty q : M (St L A R (PBody Ty V)) Unit) := by
  intro s t P
  unfold beginCB
  rw [P.heap q hq]
  split
  · exact ⟨rfl, trivial, P.setB hq (by rintro k r' ⟨⟩ hr; rw [hbp] at hr; simp [cbPtr] at hr) P.trace⟩
  · rfl

theorem two_abortCB {q : Addr} (hq : ¬ F.G q) : Two.Two F Any (abortCB q : M (St L A R (PBody Ty V)) Unit) := by
  refine Two.bind (two_readCB hbp hq) fun c _ => ?_
  split
  · exact Two.undef _
  · exact Two.writeBody hq (by rw [hbp]; simp [cbPtr])

theorem two_setCBp {q r : Addr} (hq : ¬ F.G q) (hr : ¬ F.G r) :
    Two.Two F Any (setCBp q r : M (St L A R (PBody Ty V)) Unit) :=
  Two.bind (two_readCB hbp hq) fun c _ => Two.writeBody hq (by rw [hbp]; rintro r' ⟨⟩; exact hr)

/-- The operations of the owned types use only the objects they are given. -/
structure PTwo (F : Frame L A R (PBody Ty V)) (P : POps (St L A R (PBody Ty V)) A Ty X) : Prop where
  make : ∀ ty {a d} xs, ¬ F.G d → Two.Two F Any (P.make ty a d xs)
  copyCtor : ∀ ty {a d q}, ¬ F.G d → ¬ F.G q → Two.Two F Any (P.copyCtor ty a d q)
  moveCtor : ∀ ty {a d q}, ¬ F.G d → ¬ F.G q → Two.Two F Any (P.moveCtor ty a d q)
  dtor : ∀ ty a {d}, ¬ F.G d → Two.Two F Any (P.dtor ty a d)
  block : ∀ a {d m}, ¬ F.G d → Two.Two F Any m → Two.Two F Any (P.block a d m)

omit hbp in
theorem PTwo.makeFwd {P : POps (St L A R (PBody Ty V)) A Ty X} (h : PTwo F P) (ty : Ty) {a : A} {d : Addr} (hd : ¬ F.G d)
    {u : Fwd X} (hu : FOk F u) : Two.Two F Any (P.makeFwd ty a d u) := by
  cases u
  · exact h.make _ _ hd
  · exact h.copyCtor _ hd hu
  · exact h.moveCtor _ hd hu

theorem two_plainP (P : PSpec Ty V X) : PTwo F (plainP P) where
  make ty _ _ xs hd := Two.bind Two.choose fun _ _ => two_finishU hbp ty hd _ (by simp)
  copyCtor ty _ _ _ hd hq := Two.bind (two_readU hbp ty hq) fun _ _ => Two.bind Two.choose fun _ _ =>
    two_finishU hbp ty hd _ (by rintro _ (h | h) <;> cases h; exact hq)
  moveCtor ty _ _ _ hd hq := Two.bind (two_readU hbp ty hq) fun _ _ => Two.bind Two.choose fun _ _ =>
    Two.bindU (two_writeU hbp hq _) fun _ => two_finishU hbp ty hd _ (by rintro _ (h | h) <;> cases h; exact hq)
  dtor ty _ _ hd := Two.bind (two_readU hbp ty hd) fun _ _ => Two.bind (two_readCB hbp hd) fun c hc =>
    Two.bindU (Two.writeBody hd (by rw [hbp]; exact hc)) fun _ => Two.emit (by rintro p rfl; exact hd)
  block _ _ _ _ h := h

theorem two_cbCtor (ty : Ty) (a : A) {q : Addr} (hq : ¬ F.G q) {k : A → Addr → M (St L A R (PBody Ty V)) Unit}
    (hk : ∀ b p, ¬ F.G p → Two.Two F Any (k b p)) : Two.Two F Any (cbCtor ty a q k) :=
  Two.bindU (two_beginCB hbp ty hq) fun _ => Two.bindU (Two.onThrow (hk _ q hq) (two_abortCB hbp hq)) fun _ =>
    two_setCBp hbp hq hq

variable (tr : ATraits A R) {P : POps (St L A R (PBody Ty V)) A Ty X} (TT : PTwo F P) {x y : L}

include TT in
theorem two_createControlBlock (ty : Ty) (a : A) {k : A → Addr → M (St L A R (PBody Ty V)) Unit}
    (hk : ∀ b p, ¬ F.G p → Two.Two F Any (k b p)) : Two.Two F (AOk F) (createControlBlock tr P ty a k) := by
  refine Two.bind (Two.allocate (by rw [hbp]; rfl) _) fun p hp => ?_
  refine Two.bindU (Two.onThrow (TT.block _ hp (two_cbCtor hbp ty _ hp hk)) (Two.deallocate _ hp)) fun _ => ?_
  exact Two.pure' hp

omit hbp in
theorem two_valueless (hx : F.D x) : Two.Two F Any (valueless x) :=
  Two.bind (Two.getH hx) fun _ _ => Two.pure' trivial

omit hbp in
theorem two_getAllocator (hx : F.D x) : Two.Two F Any (getAllocator x) :=
  Two.bind (Two.getH hx) fun _ _ => Two.pure' trivial

omit hbp in
theorem two_derefCB (hx : F.D x) : Two.Two F (AOk F) (derefCB x) := by
  refine Two.bind (Two.getH hx) fun h hh => ?_
  split
  · rename_i p hp; exact Two.pure' (hh p hp)
  · exact Two.undef _

theorem two_deref (hx : F.D x) : Two.Two F (AOk F) (deref x) := by
  refine Two.bind (two_derefCB hx) fun q hq => Two.bind (two_readCB hbp hq) fun c hc => ?_
  split
  · rename_i p hp; exact Two.pure' (hc p hp)
  · exact Two.undef _

theorem two_arrow (hx : F.D x) : Two.Two F (AOk F) (arrow x) := two_deref hbp hx

omit hbp in
theorem two_swap (hx : F.D x) (hy : F.D y) : Two.Two F Any (swap tr x y) := by
  unfold swap
  refine Two.noexcept (Two.bind (Two.getH hx) fun t ht => Two.bind (Two.getH hy) fun o ho => ?_)
  refine Two.ite ?_ (Two.ite ?_ (Two.undef _))
  · exact Two.bindU (Two.setAlloc hx _) fun _ => Two.bindU (Two.setAlloc hy _) fun _ =>
      Two.bindU (Two.setP hx ho) fun _ => Two.setP hy ht
  · exact Two.bindU (Two.setP hx ho) fun _ => Two.setP hy ht

omit hbp in
theorem two_friendSwap (hx : F.D x) (hy : F.D y) : Two.Two F Any (friendSwap tr x y) :=
  Two.noexcept (two_swap tr hx hy)

include TT

theorem two_vclone {q : Addr} (hq : ¬ F.G q) (a : A) : Two.Two F (AOk F) (vclone tr P q a) :=
  Two.bind (two_readCB hbp hq) fun c _ => two_createControlBlock hbp tr TT c.ty a fun _ _ hp => TT.copyCtor _ hp hq

theorem two_vmove {q : Addr} (hq : ¬ F.G q) (a : A) : Two.Two F (AOk F) (vmove tr P q a) :=
  Two.bind (two_readCB hbp hq) fun c _ => two_createControlBlock hbp tr TT c.ty a fun _ _ hp => TT.moveCtor _ hp hq

theorem two_reset (hx : F.D x) : Two.Two F Any (reset tr P x) := by
  unfold reset
  refine Two.noexcept (Two.bind (Two.getH hx) fun h hh => ?_)
  split
  · exact Two.pure' trivial
  · rename_i p hp
    exact Two.bindU (Two.bind (two_readCB hbp (hh p hp)) fun c _ => Two.bindU (TT.dtor _ _ (hh p hp)) fun _ =>
      Two.deallocate _ (hh p hp)) fun _ => Two.setP hx (by simp)

theorem two_dtor (hx : F.D x) : Two.Two F Any (dtor tr P x) :=
  Two.noexcept (Two.bindU (two_reset hbp tr TT hx) fun _ => Two.endLife hx)

theorem two_ctorCopyA (a : A) (hy : F.D y) : Two.Two F (HOk F) (ctorCopyA tr P a y) := by
  unfold ctorCopyA
  refine Two.bind (two_valueless hy) fun b _ => Two.ite ?_ (Two.pure' (fun _ h => nomatch h))
  refine Two.bind (two_derefCB hy) fun q hq => ?_
  refine Two.bind (two_vclone hbp tr TT hq a) fun p hp => Two.pure' ?_
  rintro p' ⟨⟩; exact hp

theorem two_ctorCopy (hy : F.D y) : Two.Two F (HOk F) (ctorCopy tr P y) :=
  Two.bind (Two.getH hy) fun _ _ => two_ctorCopyA hbp tr TT _ hy

theorem two_ctorMoveA (a : A) (hy : F.D y) : Two.Two F (HOk F) (ctorMoveA tr P a y) := by
  unfold ctorMoveA
  refine Two.noexcept (Two.bind (Two.getH hy) fun o ho => ?_)
  refine Two.ite ?_ (Two.ite ?_ ?_)
  · exact Two.bindU (Two.setP hy (by simp)) fun _ => Two.pure' ho
  · exact Two.bindU (Two.setP hy (by simp)) fun _ => Two.pure' ho
  · refine Two.bind (two_valueless hy) fun b _ => Two.ite ?_ (Two.pure' (fun _ h => nomatch h))
    refine Two.bind (two_derefCB hy) fun q hq => ?_
    refine Two.bind (two_vmove hbp tr TT hq a) fun p hp => Two.pure' ?_
    rintro p' ⟨⟩; exact hp

theorem two_ctorMove (hy : F.D y) : Two.Two F (HOk F) (ctorMove tr P y) :=
  Two.noexcept (Two.bind (Two.getH hy) fun _ _ => two_ctorMoveA hbp tr TT _ hy)

theorem two_assignCopy (hx : F.D x) (hy : F.D y) : Two.Two F Any (assignCopy tr P x y) := by
  have hend : Two.Two F Any (do
      if tr.pocca then
        let o ← getH y
        setAlloc x o.alloc
      pure x : M (St L A R (PBody Ty V)) L) := by
    refine Two.ite ?_ ?_
    · exact Two.bind (Two.getH hy) fun _ _ => Two.bindU (Two.setAlloc hx _) fun _ => Two.pure' trivial
    · exact Two.pure' trivial
  unfold assignCopy
  refine Two.ite (Two.pure' trivial) ?_
  refine Two.bind (two_valueless hy) fun b _ => Two.ite ?_ ?_
  · exact Two.bindU (two_reset hbp tr TT hx) fun _ => hend
  · refine Two.bind (two_derefCB hy) fun q hq => Two.bind (Two.getH hx) fun t ht => Two.bind (Two.getH hy) fun o ho => ?_
    refine Two.bind (two_vclone hbp tr TT hq _) fun p hp => ?_
    exact Two.bindU (two_reset hbp tr TT hx) fun _ => Two.bindU (Two.setP hx (by rintro q ⟨⟩; exact hp)) fun _ => hend

theorem two_assignMove (hx : F.D x) (hy : F.D y) : Two.Two F Any (assignMove tr P x y) := by
  have hend : Two.Two F Any (do
      if tr.pocma then
        let o ← getH y
        setAlloc x o.alloc
      pure x : M (St L A R (PBody Ty V)) L) := by
    refine Two.ite ?_ ?_
    · exact Two.bind (Two.getH hy) fun _ _ => Two.bindU (Two.setAlloc hx _) fun _ => Two.pure' trivial
    · exact Two.pure' trivial
  unfold assignMove
  refine Two.noexcept (Two.ite (Two.pure' trivial) ?_)
  refine Two.bind (two_valueless hy) fun b _ => Two.ite ?_ ?_
  · exact Two.bindU (two_reset hbp tr TT hx) fun _ => hend
  · refine Two.bind (Two.getH hx) fun t ht => Two.bind (Two.getH hy) fun o ho => Two.ite ?_ ?_
    · exact Two.bindU (Two.setP hx ho) fun _ => Two.bindU (Two.setP hy ht) fun _ =>
        Two.bindU (two_reset hbp tr TT hy) fun _ => hend
    · refine Two.bind (two_derefCB hy) fun q hq => ?_
      refine Two.bind (two_vmove hbp tr TT hq _) fun p hp => ?_
      exact Two.bindU (two_reset hbp tr TT hx) fun _ => Two.bindU (Two.setP hx (by rintro q ⟨⟩; exact hp)) fun _ => hend

omit TT

theorem two_evalSrc {u : Src L X} (hu : ∀ z ∈ Spec.srcOperands u, F.D z) :
    Two.Two F (FOk F) (evalSrc u : M (St L A R (PBody Ty V)) (Fwd X)) := by
  cases u with
  | arg x => exact Two.pure' trivial
  | lval y => exact Two.bind (two_deref hbp (hu y (by simp [Spec.srcOperands]))) fun _ h => Two.pure' h
  | rval y => exact Two.bind (two_deref hbp (hu y (by simp [Spec.srcOperands]))) fun _ h => Two.pure' h

variable (Q : PSpec Ty V X)

theorem two_construct (a : Option A) {c : PCtor L Ty X} (hc : ∀ z ∈ Spec.poperands (.make x a c : POp L A Ty V X), F.D z) :
    Two.Two F (HOk F) (construct tr (plainP Q) a c) := by
  have TT := two_plainP (F := F) hbp Q
  have hm : ∀ (b : A) (ty : Ty) (k : A → Addr → M (St L A R (PBody Ty V)) Unit), (∀ b p, ¬ F.G p → Two.Two F Any (k b p)) →
      Two.Two F (HOk F) (do
        let p ← createControlBlock tr (plainP Q) ty b k
        pure ⟨some p, b⟩) := fun b ty k hk =>
    Two.bind (two_createControlBlock hbp tr TT ty b hk) fun p hp => Two.pure' (by rintro q ⟨⟩; exact hp)
  cases a <;> cases c <;> simp only [construct]
  · exact hm _ _ _ fun _ _ hp => TT.make _ _ hp
  · exact Two.bind (two_evalSrc hbp fun z hz => hc z (by simp [Spec.poperands, hz])) fun _ hu => hm _ _ _ fun _ _ hp => TT.makeFwd _ hp hu
  · exact hm _ _ _ fun _ _ hp => TT.make _ _ hp
  · exact hm _ _ _ fun _ _ hp => TT.make _ _ hp
  · exact hm _ _ _ fun _ _ hp => TT.make _ _ hp
  · exact Two.bind (two_evalSrc hbp fun z hz => hc z (by simp [Spec.poperands, hz])) fun _ hu => hm _ _ _ fun _ _ hp => TT.makeFwd _ hp hu
  · exact hm _ _ _ fun _ _ hp => TT.make _ _ hp
  · exact hm _ _ _ fun _ _ hp => TT.make _ _ hp

theorem two_step {o : POp L A Ty V X} (ho : ∀ z ∈ Spec.poperands o, F.D z) : Two.Two F Any (step tr (plainP Q) o) := by
  have TT := two_plainP (F := F) hbp Q
  cases o with
  | make x a c =>
    have hx : F.D x := ho x (by cases c <;> simp [Spec.poperands])
    exact Two.bind (two_construct hbp tr Q a ho) fun _ hh => Two.bindU (Two.emplace hx hh) fun _ => Two.pure' trivial
  | copy x y =>
    have hx : F.D x := ho x (by simp [Spec.poperands])
    have hy : F.D y := ho y (by simp [Spec.poperands])
    exact Two.bind (two_ctorCopy hbp tr TT hy) fun _ hh => Two.bindU (Two.emplace hx hh) fun _ => Two.pure' trivial
  | copyA x a y =>
    have hx : F.D x := ho x (by simp [Spec.poperands])
    have hy : F.D y := ho y (by simp [Spec.poperands])
    exact Two.bind (two_ctorCopyA hbp tr TT a hy) fun _ hh => Two.bindU (Two.emplace hx hh) fun _ => Two.pure' trivial
  | move x y =>
    have hx : F.D x := ho x (by simp [Spec.poperands])
    have hy : F.D y := ho y (by simp [Spec.poperands])
    exact Two.bind (two_ctorMove hbp tr TT hy) fun _ hh => Two.bindU (Two.emplace hx hh) fun _ => Two.pure' trivial
  | moveA x a y =>
    have hx : F.D x := ho x (by simp [Spec.poperands])
    have hy : F.D y := ho y (by simp [Spec.poperands])
    exact Two.bind (two_ctorMoveA hbp tr TT a hy) fun _ hh => Two.bindU (Two.emplace hx hh) fun _ => Two.pure' trivial
  | destroy x =>
    have hx : F.D x := ho x (by simp [Spec.poperands])
    exact Two.bindU (two_dtor hbp tr TT hx) fun _ => Two.pure' trivial
  | assignCopy x y =>
    have hx : F.D x := ho x (by simp [Spec.poperands])
    have hy : F.D y := ho y (by simp [Spec.poperands])
    exact Two.bind (two_assignCopy hbp tr TT hx hy) fun _ _ => Two.pure' trivial
  | assignMove x y =>
    have hx : F.D x := ho x (by simp [Spec.poperands])
    have hy : F.D y := ho y (by simp [Spec.poperands])
    exact Two.bind (two_assignMove hbp tr TT hx hy) fun _ _ => Two.pure' trivial
  | deref x =>
    have hx : F.D x := ho x (by simp [Spec.poperands])
    exact Two.bind (two_deref hbp hx) fun _ hp => Two.bind (two_readAny hbp hp) fun _ _ => Two.pure' trivial
  | arrow x =>
    have hx : F.D x := ho x (by simp [Spec.poperands])
    exact Two.bind (two_arrow hbp hx) fun _ hp => Two.bind (two_readAny hbp hp) fun _ _ => Two.pure' trivial
  | modify x f =>
    have hx : F.D x := ho x (by simp [Spec.poperands])
    exact Two.bind (two_deref hbp hx) fun _ hp => Two.bind (two_readAny hbp hp) fun _ _ =>
      Two.bindU (two_writeU hbp hp _) fun _ => Two.pure' trivial
  | valueless x =>
    have hx : F.D x := ho x (by simp [Spec.poperands])
    exact Two.bind (two_valueless hx) fun _ _ => Two.pure' trivial
  | getAllocator x =>
    have hx : F.D x := ho x (by simp [Spec.poperands])
    exact Two.bind (two_getAllocator hx) fun _ _ => Two.pure' trivial
  | swap x y =>
    have hx : F.D x := ho x (by simp [Spec.poperands])
    have hy : F.D y := ho y (by simp [Spec.poperands])
    exact Two.bindU (two_swap tr hx hy) fun _ => Two.pure' trivial
  | friendSwap x y =>
    have hx : F.D x := ho x (by simp [Spec.poperands])
    have hy : F.D y := ho y (by simp [Spec.poperands])
    exact Two.bindU (two_friendSwap tr hx hy) fun _ => Two.pure' trivial

end
end Polymorphic

/-! Consequences -/
namespace Two
section
variable {L A R B O : Type} [DecidableEq L] [DecidableEq R] [Body B]

/-- The frame of a call. -/
def callFrame (bp : B → Option Addr) (ops : List L) (s t : St L A R B) (e : Env) : Frame L A R B where
  D z := z ∈ ops
  G p := ¬ Spec.Mine ops s e p
  bp := bp
  i := s
  j := t

theorem sameOutcome {bp : B → Option Addr} {ops : List L} {s t : St L A R B} {e : Env} {m : M (St L A R B) O}
    (hb : ∀ p c r, Spec.Mine ops s e p → s.heap p = some c → bp c.body = some r → Spec.Mine ops s e r)
    (hm : Two (callFrame bp ops s t e) Any m) (ho : ∀ z ∈ ops, t.hs z = s.hs z)
    (hs : ∀ p, Spec.Mine ops s e p → t.heap p = s.heap p) :
    Spec.SameOutcome ops (Spec.Mine ops s e) s t (m (s.enter e)) (m (t.enter e)) := by
  have P : Par (callFrame bp ops s t e) (s.enter e) (t.enter e) := {
    env := rfl
    ai := rfl
    ti := rfl
    pick := fun n h => h (.inr ⟨n, rfl⟩)
    hs := ho
    heap := fun p hp => hs p (Classical.not_not.1 hp)
    own := fun l k p hl hk hp h => h (.inl ⟨l, hl, by
      have : s.hs l = some k := hk
      simp [addr, this, hp]⟩)
    body := fun p c r hp hc hr h => h (hb p c r (Classical.not_not.1 hp) hc hr)
    fhs := fun _ _ => ⟨rfl, rfl⟩
    fheap := fun _ _ => ⟨rfl, rfl⟩
    trace := ⟨[], (List.append_nil _).symm, (List.append_nil _).symm, by simp⟩ }
  have W : ∀ s' t', Par (callFrame bp ops s t e) s' t' → Spec.SameWork ops (Spec.Mine ops s e) s s' t t' := by
    intro s' t' P
    refine ⟨P.hs, fun p hp => P.heap p (fun h => h hp), P.fhs, P.fheap, ?_⟩
    obtain ⟨w, h1, h2, h3⟩ := P.trace
    exact ⟨w, h1, h2, fun ev hev p hp => Classical.not_not.1 (h3 ev hev p hp)⟩
  have := hm _ _ P
  revert this
  cases m (s.enter e) <;> cases m (t.enter e) <;> simp only [ParRes, Spec.SameOutcome, false_implies]
  · rintro ⟨h, -, P⟩; exact ⟨h, W _ _ P⟩
  · rintro ⟨h, P⟩; exact ⟨h, W _ _ P⟩
  · exact id
  · exact id
  · exact id

theorem ended_of {ops : List L} {mine : Addr → Prop} {s t s' : St L A R B} {r r' : Res (St L A R B) O} {a : Seen O}
    (h : Spec.SameOutcome ops mine s t r r') (hr : Spec.ended r = some (a, s')) :
    ∃ t', Spec.ended r' = some (a, t') ∧ Spec.SameWork ops mine s s' t t' := by
  cases r <;> cases r' <;> simp only [Spec.SameOutcome, Spec.ended, Option.some.injEq, Prod.mk.injEq, reduceCtorEq] at h hr
  · obtain ⟨rfl, rfl⟩ := hr; obtain ⟨rfl, h⟩ := h; exact ⟨_, rfl, h⟩
  · obtain ⟨rfl, rfl⟩ := hr; obtain ⟨rfl, h⟩ := h; exact ⟨_, rfl, h⟩

theorem ended_of' {ops : List L} {mine : Addr → Prop} {s t t' : St L A R B} {r r' : Res (St L A R B) O} {a : Seen O}
    (h : Spec.SameOutcome ops mine s t r r') (hr : Spec.ended r' = some (a, t')) :
    ∃ s', Spec.ended r = some (a, s') ∧ Spec.SameWork ops mine s s' t t' := by
  cases r <;> cases r' <;> simp only [Spec.SameOutcome, Spec.ended, Option.some.injEq, Prod.mk.injEq, reduceCtorEq] at h hr
  · obtain ⟨rfl, rfl⟩ := hr; obtain ⟨rfl, h⟩ := h; exact ⟨_, rfl, h⟩
  · obtain ⟨rfl, rfl⟩ := hr; obtain ⟨rfl, h⟩ := h; exact ⟨_, rfl, h⟩

theorem commute {s s₁ s₁₂ : St L A R B} {c₁ c₂ : St L A R B → Res (St L A R B) O} {ops₁ ops₂ : List L}
    {e₁ e₂ : Env} {a₁ a₂ : Seen O}
    (f₁ : ∀ t, (∀ z ∈ ops₁, t.hs z = s.hs z) → (∀ p, Spec.Mine ops₁ s e₁ p → t.heap p = s.heap p) →
      Spec.SameOutcome ops₁ (Spec.Mine ops₁ s e₁) s t (c₁ s) (c₁ t))
    (f₂ : ∀ t, (∀ z ∈ ops₂, t.hs z = s.hs z) → (∀ p, Spec.Mine ops₂ s e₂ p → t.heap p = s.heap p) →
      Spec.SameOutcome ops₂ (Spec.Mine ops₂ s e₂) s t (c₂ s) (c₂ t))
    (g₁ : ∀ a s', Spec.ended (c₁ s) = some (a, s') →
      (∀ z ∈ ops₂, s'.hs z = s.hs z) ∧ ∀ p, Spec.Mine ops₂ s e₂ p → s'.heap p = s.heap p)
    (g₂ : ∀ a s', Spec.ended (c₂ s) = some (a, s') →
      (∀ z ∈ ops₁, s'.hs z = s.hs z) ∧ ∀ p, Spec.Mine ops₁ s e₁ p → s'.heap p = s.heap p)
    (h₁ : Spec.ended (c₁ s) = some (a₁, s₁)) (h₂ : Spec.ended (c₂ s₁) = some (a₂, s₁₂)) :
    ∃ s₂ s₂₁, Spec.ended (c₂ s) = some (a₂, s₂) ∧ Spec.ended (c₁ s₂) = some (a₁, s₂₁) ∧ s₂₁.hs = s₁₂.hs ∧
      s₂₁.heap = s₁₂.heap := by
  obtain ⟨t₁, h₁', w₁⟩ := ended_of (f₁ s (fun _ _ => rfl) (fun _ _ => rfl)) h₁
  have k₁ := g₁ _ _ h₁
  obtain ⟨s₂, h₃, w₂⟩ := ended_of' (f₂ s₁ k₁.1 k₁.2) h₂
  have k₂ := g₂ _ _ h₃
  obtain ⟨s₂₁, h₄, w₃⟩ := ended_of (f₁ s₂ k₂.1 k₂.2) h₁
  refine ⟨s₂, s₂₁, h₃, h₄, ?_, ?_⟩
  · funext z
    by_cases hz : z ∈ ops₁
    · rw [w₃.objects z hz]
      by_cases hz' : z ∈ ops₂
      · rw [w₂.objects z hz', k₂.1 z hz, k₁.1 z hz']
      · rw [(w₂.other_objects z hz').2]
    · rw [(w₃.other_objects z hz).2]
      by_cases hz' : z ∈ ops₂
      · rw [w₂.objects z hz']
      · rw [(w₂.other_objects z hz').1, (w₂.other_objects z hz').2, (w₁.other_objects z hz).1]
  · funext p
    by_cases hp : Spec.Mine ops₁ s e₁ p
    · rw [w₃.storage p hp]
      by_cases hp' : Spec.Mine ops₂ s e₂ p
      · rw [w₂.storage p hp', k₂.2 p hp, k₁.2 p hp']
      · rw [(w₂.other_storage p hp').2]
    · rw [(w₃.other_storage p hp).2]
      by_cases hp' : Spec.Mine ops₂ s e₂ p
      · rw [w₂.storage p hp']
      · rw [(w₂.other_storage p hp').1, (w₂.other_storage p hp').2, (w₁.other_storage p hp).1]

end
end Two
end Verif
