import Verif.Proofs.Two
import Verif.Proofs.PolyTransfer

/-!
What a call writes: only the objects `W`, and nothing in the storage `G`.
-/

set_option autoImplicit false
set_option linter.unusedSectionVars false
set_option linter.unusedSimpArgs false

namespace Verif

/-- The objects that may be written, the storage that may not, the pointers inside blocks, and the state at the start. -/
structure Only.Frame (L A R B : Type) where
  W : L → Prop
  G : Addr → Prop
  bp : B → Option Addr
  i : St L A R B

namespace Only
variable {L A R B X α β : Type} [DecidableEq L] [DecidableEq R] [Body B]

/-- Nothing else was written so far. -/
structure Kept (F : Frame L A R B) (s : St L A R B) : Prop where
  pick : ∀ n, ¬ F.G (s.env.pick n)
  own : ∀ l h p, F.W l → s.hs l = some h → h.p = some p → ¬ F.G p
  body : ∀ p c r, ¬ F.G p → s.heap p = some c → F.bp c.body = some r → ¬ F.G r
  fhs : ∀ l, ¬ F.W l → s.hs l = F.i.hs l
  fheap : ∀ p, F.G p → s.heap p = F.i.heap p
  trace : ∃ w, s.trace = F.i.trace ++ w ∧ ∀ ev ∈ w, ∀ p, ev.writes p → ¬ F.G p

/-- The outcome. -/
def KeptRes (F : Frame L A R B) (post : α → Prop) : Res (St L A R B) α → Prop
  | .ok a s => post a ∧ Kept F s
  | .threw _ s => Kept F s
  | _ => True

/-- The code writes nothing else, and its result satisfies `post`. -/
def Only (F : Frame L A R B) (post : α → Prop) (m : M (St L A R B) α) : Prop :=
  ∀ s, Kept F s → KeptRes F post (m s)

/-- No condition. -/
abbrev Any {α : Type} : α → Prop := fun _ => True

/-- The object does not point into `G`. -/
abbrev HOk (F : Frame L A R B) : Handle A → Prop := fun h => ∀ p, h.p = some p → ¬ F.G p

/-- The address is not in `G`. -/
abbrev AOk (F : Frame L A R B) : Addr → Prop := fun p => ¬ F.G p

/-- The forwarded argument, if it is moved from, is not in `G`. -/
def FOk (F : Frame L A R B) : Fwd X → Prop
  | .rval q => ¬ F.G q
  | _ => True

variable {F : Frame L A R B} {post : α → Prop} {post' : β → Prop}

theorem pure' {a : α} (h : post a) : Only F post (pure a) := fun _ P => ⟨h, P⟩
theorem throwE (e : Exn) : Only F post (M.throwE e : M (St L A R B) α) := fun _ P => P
theorem undef (u : UB) : Only F post (M.undef u : M (St L A R B) α) := fun _ _ => trivial

theorem bind {m : M (St L A R B) α} {f : α → M (St L A R B) β} (hm : Only F post m)
    (hf : ∀ a, post a → Only F post' (f a)) : Only F post' (m >>= f) := by
  intro s P
  have := hm s P
  show KeptRes F post' (M.andThen m f s)
  unfold M.andThen
  revert this
  cases m s <;> simp only [KeptRes]
  · rintro ⟨h, P'⟩; exact hf _ h _ P'
  · exact id
  all_goals exact id

theorem bindU {γ : Type} {m : M (St L A R B) γ} {f : γ → M (St L A R B) β} (hm : Only F Any m)
    (hf : ∀ a, Only F post' (f a)) : Only F post' (m >>= f) := bind hm fun a _ => hf a

theorem onThrow {m : M (St L A R B) α} {c : M (St L A R B) Unit} (hm : Only F post m) (hc : Only F Any c) :
    Only F post (M.onThrow m c) := by
  intro s P
  have := hm s P
  unfold M.onThrow
  revert this
  cases m s <;> simp only [KeptRes]
  · exact id
  · rename_i e s'
    intro P'
    have := hc s' P'
    revert this
    cases c s' <;> simp only [KeptRes]
    · exact fun h => h.2
    · exact id
    all_goals exact id
  all_goals exact id

theorem noexcept {b : Bool} {m : M (St L A R B) α} (hm : Only F post m) : Only F post (M.noexceptIf b m) := by
  intro s P
  have := hm s P
  unfold M.noexceptIf
  revert this
  cases m s <;> simp only [KeptRes]
  · exact id
  · cases b <;> simp
  all_goals exact id

theorem ite {c : Prop} [Decidable c] {m n : M (St L A R B) α} (hm : Only F post m) (hn : Only F post n) :
    Only F post (if c then m else n) := by split <;> assumption

theorem weaken {m : M (St L A R B) α} (hm : Only F post m) : Only F Any m := by
  intro s P
  have := hm s P
  revert this
  cases m s <;> simp only [KeptRes]
  · exact fun h => ⟨trivial, h.2⟩
  · exact id
  all_goals exact id

/-! The primitives. -/

theorem Kept.log {s : St L A R B} (P : Kept F s) (ev : Ev R) (h : ∀ p, ev.writes p → ¬ F.G p) :
    ∃ w, s.trace ++ [ev] = F.i.trace ++ w ∧ ∀ ev ∈ w, ∀ p, ev.writes p → ¬ F.G p := by
  obtain ⟨w, h1, h3⟩ := P.trace
  refine ⟨w ++ [ev], by simp [h1], ?_⟩
  intro ev' hev'
  rcases List.mem_append.1 hev' with h' | h'
  · exact h3 _ h'
  · simp at h'; subst h'; exact h

/-- Change an object in `W`. -/
theorem Kept.setH {s : St L A R B} (P : Kept F s) {l : L} (hl : F.W l) {h : Option (Handle A)}
    (hh : ∀ k p, h = some k → k.p = some p → ¬ F.G p) : Kept F { s with hs := upd s.hs l h } := by
  refine { P with own := ?_, fhs := ?_ }
  · intro l' k p hl' hk hp
    simp only [upd] at hk
    split at hk
    · exact hh k p hk hp
    · exact P.own _ _ _ hl' hk hp
  · intro l' hl'
    have : l' ≠ l := fun e => hl' (e ▸ hl)
    simp only [upd, this, if_false]
    exact P.fhs _ hl'

/-- Change a block outside `G`. -/
theorem Kept.setB {s : St L A R B} (P : Kept F s) {q : Addr} (hq : ¬ F.G q) {c : Option (Cell R B)}
    (hc : ∀ k r, c = some k → F.bp k.body = some r → ¬ F.G r) {ts : List (Ev R)}
    (ht : ∃ w, ts = F.i.trace ++ w ∧ ∀ ev ∈ w, ∀ p, ev.writes p → ¬ F.G p) :
    Kept F { s with heap := upd s.heap q c, trace := ts } := by
  refine { P with body := ?_, fheap := ?_, trace := ht }
  · intro p k r hp hk hr
    simp only [upd] at hk
    split at hk
    · exact hc k r hk hr
    · exact P.body _ _ _ hp hk hr
  · intro p hp
    have : p ≠ q := fun e => hq (e ▸ hp)
    simp only [upd, this, if_false]
    exact P.fheap _ hp

theorem emit {ev : Ev R} (h : ∀ p, ev.writes p → ¬ F.G p) : Only F Any (emit ev) := fun _ P =>
  ⟨trivial, { P with trace := P.log ev h }⟩

theorem choose : Only F Any (choose : M (St L A R B) Nat) := fun _ P => ⟨trivial, { P with }⟩

theorem getH {l : L} (hl : F.W l) : Only F (HOk F) (getH l) := by
  intro s P
  unfold Verif.getH
  cases h : s.hs l with
  | none => trivial
  | some k => exact ⟨fun p hp => P.own l k p hl h hp, P⟩

theorem getH' (l : L) : Only F Any (Verif.getH l) := by
  intro s P
  unfold Verif.getH
  cases h : s.hs l with
  | none => trivial
  | some k => exact ⟨trivial, P⟩

theorem setP {l : L} (hl : F.W l) {p : Option Addr} (hp : ∀ q, p = some q → ¬ F.G q) :
    Only F Any (setP l p : M (St L A R B) Unit) := by
  intro s P
  unfold Verif.setP
  cases h : s.hs l with
  | none => trivial
  | some k => exact ⟨trivial, P.setH hl (by rintro k' q ⟨⟩ hq; exact hp q hq)⟩

theorem setAlloc {l : L} (hl : F.W l) (a : A) : Only F Any (setAlloc l a : M (St L A R B) Unit) := by
  intro s P
  unfold Verif.setAlloc
  cases h : s.hs l with
  | none => trivial
  | some k => exact ⟨trivial, P.setH hl (by rintro k' q ⟨⟩ hq; exact P.own _ _ _ hl h hq)⟩

theorem emplace {l : L} (hl : F.W l) {h : Handle A} (hh : HOk F h) :
    Only F Any (emplace l h : M (St L A R B) Unit) := by
  intro s P
  unfold Verif.emplace
  cases s.hs l with
  | some _ => trivial
  | none => exact ⟨trivial, P.setH hl (by rintro k' q ⟨⟩ hq; exact hh q hq)⟩

theorem endLife {l : L} (hl : F.W l) : Only F Any (endLife l : M (St L A R B) Unit) := by
  intro s P
  unfold Verif.endLife
  cases s.hs l with
  | none => trivial
  | some _ => exact ⟨trivial, P.setH hl (by rintro k' q ⟨⟩)⟩

theorem allocate (hraw : F.bp Body.raw = none) (r : R) : Only F (AOk F) (allocate r) := by
  intro s P
  have hp := P.pick s.ai
  unfold Verif.allocate
  cases s.env.fail s.ai with
  | true => exact { P with }
  | false =>
    simp only [Bool.false_eq_true, if_false]
    cases s.heap (s.env.pick s.ai) with
    | some c => exact { P with }
    | none =>
      refine ⟨hp, ?_⟩
      have := P.setB hp (c := some ⟨r, Body.raw⟩) (by rintro k r' ⟨⟩ hr; simp [hraw] at hr)
        (P.log (.alloc r (s.env.pick s.ai)) (by intro p h; simp only [Ev.writes] at h; rw [h]; exact hp))
      exact { this with }

theorem deallocate (r : R) {p : Addr} (hp : ¬ F.G p) : Only F Any (deallocate r p : M (St L A R B) Unit) := by
  intro s P
  unfold Verif.deallocate
  cases s.heap p with
  | none => trivial
  | some c =>
    simp only
    split
    · trivial
    · split
      · trivial
      · exact ⟨trivial, P.setB hp (by rintro k r' ⟨⟩)
          (P.log (.dealloc r p) (by intro q h; simp only [Ev.writes] at h; rw [h]; exact hp))⟩

theorem readBody {p : Addr} (hp : ¬ F.G p) :
    Only F (fun b => ∀ r, F.bp b = some r → ¬ F.G r) (readBody p : M (St L A R B) B) := by
  intro s P
  unfold Verif.readBody
  cases h : s.heap p with
  | none => trivial
  | some c => exact ⟨fun r hr => P.body _ _ _ hp h hr, P⟩

theorem readBody' (p : Addr) : Only F Any (Verif.readBody p : M (St L A R B) B) := by
  intro s P
  unfold Verif.readBody
  cases h : s.heap p with
  | none => trivial
  | some c => exact ⟨trivial, P⟩

theorem writeBody {p : Addr} (hp : ¬ F.G p) {b : B} (hb : ∀ r, F.bp b = some r → ¬ F.G r) :
    Only F Any (writeBody p b : M (St L A R B) Unit) := by
  intro s P
  unfold Verif.writeBody
  cases s.heap p with
  | none => trivial
  | some c => exact ⟨trivial, P.setB hp (by rintro k r' ⟨⟩ hr; exact hb _ hr) P.trace⟩

/-- The operations of the owned type write only the objects they may. -/
structure TOnly (F : Frame L A R B) (T : TOps (St L A R B) A X) : Prop where
  make : ∀ {a d} xs, ¬ F.G d → Only F Any (T.make a d xs)
  copyCtor : ∀ {a d} q, ¬ F.G d → Only F Any (T.copyCtor a d q)
  moveCtor : ∀ {a d q}, ¬ F.G d → ¬ F.G q → Only F Any (T.moveCtor a d q)
  copyAssign : ∀ {d} q, ¬ F.G d → Only F Any (T.copyAssign d q)
  moveAssign : ∀ {d q}, ¬ F.G d → ¬ F.G q → Only F Any (T.moveAssign d q)
  assignArg : ∀ {d} x, ¬ F.G d → Only F Any (T.assignArg d x)
  dtor : ∀ a {d}, ¬ F.G d → Only F Any (T.dtor a d)

theorem TOnly.makeFwd {T : TOps (St L A R B) A X} (h : TOnly F T) {a : A} {d : Addr} (hd : ¬ F.G d) {u : Fwd X} (hu : FOk F u) :
    Only F Any (T.makeFwd a d u) := by
  cases u
  · exact h.make _ hd
  · exact h.copyCtor _ hd
  · exact h.moveCtor hd hu

theorem TOnly.assignFwd {T : TOps (St L A R B) A X} (h : TOnly F T) {d : Addr} (hd : ¬ F.G d) {u : Fwd X} (hu : FOk F u) :
    Only F Any (T.assignFwd d u) := by
  cases u
  · exact h.assignArg _ hd
  · exact h.copyAssign _ hd
  · exact h.moveAssign hd hu

end Only

/-! `indirect.h` -/
namespace Indirect
open Only (Kept KeptRes Any HOk AOk FOk TOnly Frame)
section
variable {L A R B V X : Type} [DecidableEq L] [DecidableEq R] [Body B]
variable {F : Only.Frame L A R B} (tr : ATraits A R) {T : TOps (St L A R B) A X} (hraw : F.bp Body.raw = none)
  (TT : TOnly F T) {x y : L}

theorem only_valueless (x : L) : Only.Only F Any (valueless x) :=
  Only.bindU (Only.getH' x) fun _ => Only.pure' trivial

theorem only_getAllocator (x : L) : Only.Only F Any (getAllocator x) :=
  Only.bindU (Only.getH' x) fun _ => Only.pure' trivial

theorem only_deref (hx : F.W x) : Only.Only F (AOk F) (deref x) := by
  refine Only.bind (Only.getH hx) fun h hh => ?_
  split
  · rename_i p hp; exact Only.pure' (hh p hp)
  · exact Only.undef _

theorem only_deref' (x : L) : Only.Only F Any (deref x) := by
  refine Only.bindU (Only.getH' x) fun h => ?_
  split
  · exact Only.pure' trivial
  · exact Only.undef _

include hraw in
theorem only_constructFrom (a : A) {k : A → Addr → M (St L A R B) Unit} (hk : ∀ b p, ¬ F.G p → Only.Only F Any (k b p)) :
    Only.Only F (AOk F) (constructFrom tr a k) := by
  unfold constructFrom
  refine Only.bind (Only.allocate hraw _) fun p hp => ?_
  refine Only.bindU (Only.onThrow (hk _ p hp) (Only.deallocate _ hp)) fun _ => ?_
  exact Only.pure' hp

theorem only_swap (hx : F.W x) (hy : F.W y) : Only.Only F Any (swap tr x y) := by
  unfold swap
  refine Only.noexcept (Only.bind (Only.getH hx) fun t ht => Only.bind (Only.getH hy) fun o ho => ?_)
  refine Only.ite ?_ (Only.ite ?_ (Only.undef _))
  · exact Only.bindU (Only.setAlloc hx _) fun _ => Only.bindU (Only.setAlloc hy _) fun _ =>
      Only.bindU (Only.setP hx ho) fun _ => Only.setP hy ht
  · exact Only.bindU (Only.setP hx ho) fun _ => Only.setP hy ht

theorem only_friendSwap (hx : F.W x) (hy : F.W y) : Only.Only F Any (friendSwap tr x y) :=
  Only.noexcept (only_swap tr hx hy)

include TT

theorem only_reset (hx : F.W x) : Only.Only F Any (reset tr T x) := by
  unfold reset destroyWith
  refine Only.noexcept (Only.bind (Only.getH hx) fun h hh => ?_)
  split
  · exact Only.pure' trivial
  · rename_i p hp
    exact Only.bindU (Only.bindU (TT.dtor _ (hh p hp)) fun _ => Only.deallocate _ (hh p hp)) fun _ =>
      Only.setP hx (by simp)

theorem only_dtor (hx : F.W x) : Only.Only F Any (dtor tr T x) :=
  Only.noexcept (Only.bindU (only_reset tr TT hx) fun _ => Only.endLife hx)

include hraw

theorem only_ctorCopyA (a : A) (y : L) : Only.Only F (HOk F) (ctorCopyA tr T a y) := by
  unfold ctorCopyA
  refine Only.bindU (only_valueless y) fun b => Only.ite (Only.pure' (fun _ h => nomatch h)) ?_
  refine Only.bindU (only_deref' y) fun q => ?_
  refine Only.bind (only_constructFrom tr hraw a fun _ p hp => TT.copyCtor q hp) fun p hp => Only.pure' ?_
  rintro p' ⟨⟩; exact hp

theorem only_ctorCopy (y : L) : Only.Only F (HOk F) (ctorCopy tr T y) :=
  Only.bindU (Only.getH' y) fun _ => only_ctorCopyA tr hraw TT _ y

theorem only_ctorMoveA (a : A) (hy : F.W y) : Only.Only F (HOk F) (ctorMoveA tr T a y) := by
  unfold ctorMoveA
  refine Only.noexcept (Only.bind (Only.getH hy) fun o ho => ?_)
  refine Only.ite ?_ (Only.ite ?_ ?_)
  · exact Only.bindU (Only.setP hy (by simp)) fun _ => Only.pure' ho
  · exact Only.bindU (Only.setP hy (by simp)) fun _ => Only.pure' ho
  · refine Only.bindU (only_valueless y) fun b => Only.ite ?_ (Only.pure' (fun _ h => nomatch h))
    refine Only.bind (only_deref hy) fun q hq => ?_
    refine Only.bind (only_constructFrom tr hraw a fun _ p hp => TT.moveCtor hp hq) fun p hp => Only.pure' ?_
    rintro p' ⟨⟩; exact hp

theorem only_ctorMove (hy : F.W y) : Only.Only F (HOk F) (ctorMove tr T y) :=
  Only.noexcept (Only.bindU (Only.getH' y) fun _ => only_ctorMoveA tr hraw TT _ hy)

theorem only_assignCopy (hx : F.W x) (y : L) : Only.Only F Any (assignCopy tr T x y) := by
  have hend : Only.Only F Any (do
      if tr.pocca then
        let o ← getH y
        setAlloc x o.alloc
      pure x : M (St L A R B) L) := by
    refine Only.ite ?_ ?_
    · exact Only.bindU (Only.getH' y) fun _ => Only.bindU (Only.setAlloc hx _) fun _ => Only.pure' trivial
    · exact Only.pure' trivial
  unfold assignCopy
  refine Only.ite (Only.pure' trivial) ?_
  refine Only.bindU (only_valueless y) fun b => Only.ite ?_ ?_
  · exact Only.bindU (only_reset tr TT hx) fun _ => hend
  · refine Only.bindU (Only.getH' x) fun t => Only.bindU (Only.getH' y) fun o => Only.ite ?_ ?_
    · exact Only.bind (only_deref hx) fun d hd => Only.bindU (only_deref' y) fun q =>
        Only.bindU (TT.copyAssign q hd) fun _ => hend
    · refine Only.bindU (only_deref' y) fun q => ?_
      refine Only.bind (only_constructFrom tr hraw _ fun _ p hp => TT.copyCtor q hp) fun p hp => ?_
      exact Only.bindU (only_reset tr TT hx) fun _ => Only.bindU (Only.setP hx (by rintro q ⟨⟩; exact hp)) fun _ => hend

theorem only_assignMove (hx : F.W x) (hy : F.W y) : Only.Only F Any (assignMove tr T x y) := by
  have hend : Only.Only F Any (do
      if tr.pocma then
        let o ← getH y
        setAlloc x o.alloc
      pure x : M (St L A R B) L) := by
    refine Only.ite ?_ ?_
    · exact Only.bindU (Only.getH' y) fun _ => Only.bindU (Only.setAlloc hx _) fun _ => Only.pure' trivial
    · exact Only.pure' trivial
  unfold assignMove
  refine Only.noexcept (Only.ite (Only.pure' trivial) ?_)
  refine Only.bindU (only_valueless y) fun b => Only.ite ?_ ?_
  · exact Only.bindU (only_reset tr TT hx) fun _ => hend
  · refine Only.bind (Only.getH hx) fun t ht => Only.bind (Only.getH hy) fun o ho => Only.ite ?_ ?_
    · exact Only.bindU (Only.setP hx ho) fun _ => Only.bindU (Only.setP hy ht) fun _ =>
        Only.bindU (only_reset tr TT hy) fun _ => hend
    · refine Only.bind (only_deref hy) fun q hq => ?_
      refine Only.bind (only_constructFrom tr hraw _ fun _ p hp => TT.moveCtor hp hq) fun p hp => ?_
      exact Only.bindU (only_reset tr TT hx) fun _ => Only.bindU (Only.setP hx (by rintro q ⟨⟩; exact hp)) fun _ => hend

theorem only_assignFrom (hx : F.W x) {u : Fwd X} (hu : FOk F u) : Only.Only F Any (assignFrom tr T x u) := by
  unfold assignFrom
  refine Only.bindU (only_valueless x) fun b => Only.ite ?_ ?_
  · refine Only.bindU (Only.getH' x) fun t => ?_
    refine Only.bind (only_constructFrom tr hraw _ fun _ p hp => TT.makeFwd hp hu) fun p hp => ?_
    exact Only.bindU (Only.setP hx (by rintro q ⟨⟩; exact hp)) fun _ => Only.pure' trivial
  · exact Only.bind (only_deref hx) fun d hd => Only.bindU (TT.assignFwd hd hu) fun _ => Only.pure' trivial

end

section
variable {L A R V X : Type} [DecidableEq L] [DecidableEq R]
variable {F : Only.Frame L A R (Obj V)} (hbp : ∀ b, F.bp b = none)

theorem only_readObj (p : Addr) : Only.Only F Any (readObj p) := by
  refine Only.bindU (Only.readBody' p) fun b => ?_
  split
  · exact Only.pure' trivial
  · exact Only.undef _

theorem only_rethrow (r : Option Exn) : Only.Only F Any (rethrow r) := by
  cases r
  · exact Only.pure' trivial
  · exact Only.throwE _

include hbp

theorem only_writeObj {p : Addr} (hp : ¬ F.G p) (v : V) : Only.Only F Any (writeObj p v) :=
  Only.bindU (only_readObj p) fun _ => Only.writeBody hp (by simp [hbp])

theorem only_beginObj {p : Addr} (hp : ¬ F.G p) (v : V) {how : How}
    (hh : ∀ q, how = .moveOf q → ¬ F.G q) : Only.Only F Any (beginObj p v how) := by
  intro s P
  unfold beginObj
  split
  · refine ⟨trivial, P.setB hp (by simp [hbp]) (P.log (.construct p how) ?_)⟩
    rintro q (rfl | h)
    · exact hp
    · exact hh q h
  · trivial

theorem only_finish {p : Addr} (hp : ¬ F.G p) (r : Except Exn V) {how : How}
    (hh : ∀ q, how = .moveOf q → ¬ F.G q) : Only.Only F Any (finish p how r) := by
  cases r
  · exact Only.throwE _
  · exact only_beginObj hbp hp _ hh

theorem only_plain (T : TSpec V X) : TOnly F (plain T : TOps (St L A R (Obj V)) A X) where
  make xs hd := Only.bindU Only.choose fun _ => only_finish hbp hd _ (by simp)
  copyCtor q hd := Only.bindU (only_readObj q) fun _ => Only.bindU Only.choose fun _ =>
    only_finish hbp hd _ (by simp)
  moveCtor hd hq := Only.bindU (only_readObj _) fun _ => Only.bindU Only.choose fun _ =>
    Only.bindU (only_writeObj hbp hq _) fun _ => only_finish hbp hd _ (by rintro _ h; cases h; exact hq)
  copyAssign q hd := Only.bindU (only_readObj _) fun _ => Only.bindU (only_readObj q) fun _ =>
    Only.bindU Only.choose fun _ => Only.bindU (Only.emit (by rintro p (rfl | h)
                                                              · exact hd
                                                              · cases h)) fun _ =>
    Only.bindU (only_writeObj hbp hd _) fun _ => only_rethrow _
  moveAssign hd hq := Only.bindU (only_readObj _) fun _ => Only.bindU (only_readObj _) fun _ =>
    Only.bindU Only.choose fun _ => Only.bindU (Only.emit (by rintro p (rfl | h)
                                                              · exact hd
                                                              · cases h; exact hq)) fun _ =>
    Only.bindU (only_writeObj hbp hq _) fun _ => Only.bindU (only_writeObj hbp hd _) fun _ => only_rethrow _
  assignArg x hd := Only.bindU (only_readObj _) fun _ =>
    Only.bindU Only.choose fun _ => Only.bindU (Only.emit (by rintro p (rfl | h)
                                                              · exact hd
                                                              · cases h)) fun _ =>
    Only.bindU (only_writeObj hbp hd _) fun _ => only_rethrow _
  dtor _ _ hd := Only.bindU (only_readObj _) fun _ => Only.bindU (Only.writeBody hd (by simp [hbp])) fun _ =>
    Only.emit (by rintro p rfl; exact hd)

omit hbp in
theorem only_evalSrc {u : Src L X} (hu : ∀ z, Spec.movedSrc u = some z → F.W z) :
    Only.Only F (FOk F) (evalSrc u : M (St L A R (Obj V)) (Fwd X)) := by
  cases u with
  | arg x => exact Only.pure' trivial
  | lval y => exact Only.bindU (only_deref' y) fun _ => Only.pure' trivial
  | rval y => exact Only.bind (only_deref (hu y rfl)) fun _ h => Only.pure' h

variable (tr : ATraits A R) (T : TSpec V X)

theorem only_construct (a : Option A) {c : Ctor L X} {x : L}
    (hc : ∀ z, Spec.movedFrom (.make x a c : Op L A V X) = some z → F.W z) :
    Only.Only F (HOk F) (construct tr (plain T) a c) := by
  have TT := only_plain (F := F) hbp T
  have hr : F.bp Body.raw = none := hbp _
  have hm : ∀ (b : A) (k : A → Addr → M (St L A R (Obj V)) Unit), (∀ b p, ¬ F.G p → Only.Only F Any (k b p)) →
      Only.Only F (HOk F) (do
        let p ← constructFrom tr b k
        pure ⟨some p, b⟩) := fun b k hk =>
    Only.bind (only_constructFrom tr hr b hk) fun p hp => Only.pure' (by rintro q ⟨⟩; exact hp)
  cases a <;> cases c <;> simp only [construct]
  · exact hm _ _ fun _ _ hp => TT.make _ hp
  · exact Only.bind (only_evalSrc hc) fun _ hu => hm _ _ fun _ _ hp => TT.makeFwd hp hu
  · exact hm _ _ fun _ _ hp => TT.make _ hp
  · exact Only.bind (only_evalSrc hc) fun _ hu => hm _ _ fun _ _ hp => TT.makeFwd hp hu
  · exact hm _ _ fun _ _ hp => TT.make _ hp
  · exact hm _ _ fun _ _ hp => TT.make _ hp
  · exact Only.bind (only_evalSrc hc) fun _ hu => hm _ _ fun _ _ hp => TT.makeFwd hp hu
  · exact hm _ _ fun _ _ hp => TT.make _ hp
  · exact Only.bind (only_evalSrc hc) fun _ hu => hm _ _ fun _ _ hp => TT.makeFwd hp hu
  · exact hm _ _ fun _ _ hp => TT.make _ hp

theorem only_step {o : Op L A V X} (ho : ∀ z ∈ Spec.changes o, F.W z) : Only.Only F Any (step tr (plain T) o) := by
  have TT := only_plain (F := F) hbp T
  have hr : F.bp Body.raw = none := hbp _
  have hmv : ∀ z, Spec.movedFrom o = some z → F.W z := fun z hz => ho z (by simp [Spec.changes, hz])
  have hrb : ∀ z ∈ Spec.rebinds o, F.W z := fun z hz => ho z (by simp [Spec.changes, hz])
  cases o with
  | make x a c =>
    have hx : F.W x := hrb x (by simp [Spec.rebinds])
    exact Only.bind (only_construct hbp tr T a hmv) fun _ hh => Only.bindU (Only.emplace hx hh) fun _ => Only.pure' trivial
  | copy x y =>
    have hx : F.W x := hrb x (by simp [Spec.rebinds])
    exact Only.bind (only_ctorCopy tr hr TT y) fun _ hh => Only.bindU (Only.emplace hx hh) fun _ => Only.pure' trivial
  | copyA x a y =>
    have hx : F.W x := hrb x (by simp [Spec.rebinds])
    exact Only.bind (only_ctorCopyA tr hr TT a y) fun _ hh => Only.bindU (Only.emplace hx hh) fun _ => Only.pure' trivial
  | move x y =>
    have hx : F.W x := hrb x (by simp [Spec.rebinds])
    have hy : F.W y := hrb y (by simp [Spec.rebinds])
    exact Only.bind (only_ctorMove tr hr TT hy) fun _ hh => Only.bindU (Only.emplace hx hh) fun _ => Only.pure' trivial
  | moveA x a y =>
    have hx : F.W x := hrb x (by simp [Spec.rebinds])
    have hy : F.W y := hrb y (by simp [Spec.rebinds])
    exact Only.bind (only_ctorMoveA tr hr TT a hy) fun _ hh => Only.bindU (Only.emplace hx hh) fun _ => Only.pure' trivial
  | destroy x =>
    have hx : F.W x := hrb x (by simp [Spec.rebinds])
    exact Only.bindU (only_dtor tr TT hx) fun _ => Only.pure' trivial
  | assignCopy x y =>
    have hx : F.W x := hrb x (by simp [Spec.rebinds])
    exact Only.bindU (only_assignCopy tr hr TT hx y) fun _ => Only.pure' trivial
  | assignMove x y =>
    have hx : F.W x := hrb x (by simp [Spec.rebinds])
    have hy : F.W y := hrb y (by simp [Spec.rebinds])
    exact Only.bindU (only_assignMove tr hr TT hx hy) fun _ => Only.pure' trivial
  | assignFrom x u =>
    have hx : F.W x := hrb x (by simp [Spec.rebinds])
    exact Only.bind (only_evalSrc hmv) fun _ hu =>
      Only.bindU (only_assignFrom tr hr TT hx hu) fun _ => Only.pure' trivial
  | deref x => exact Only.bindU (only_deref' x) fun _ => Only.bindU (only_readObj _) fun _ => Only.pure' trivial
  | arrow x => exact Only.bindU (only_deref' x) fun _ => Only.bindU (only_readObj _) fun _ => Only.pure' trivial
  | modify x f =>
    have hx : F.W x := ho x (by simp [Spec.changes])
    exact Only.bind (only_deref hx) fun _ hp => Only.bindU (only_readObj _) fun _ =>
      Only.bindU (only_writeObj hbp hp _) fun _ => Only.pure' trivial
  | valueless x => exact Only.bindU (only_valueless x) fun _ => Only.pure' trivial
  | getAllocator x => exact Only.bindU (only_getAllocator x) fun _ => Only.pure' trivial
  | swap x y =>
    have hx : F.W x := hrb x (by simp [Spec.rebinds])
    have hy : F.W y := hrb y (by simp [Spec.rebinds])
    exact Only.bindU (only_swap tr hx hy) fun _ => Only.pure' trivial
  | friendSwap x y =>
    have hx : F.W x := hrb x (by simp [Spec.rebinds])
    have hy : F.W y := hrb y (by simp [Spec.rebinds])
    exact Only.bindU (only_friendSwap tr hx hy) fun _ => Only.pure' trivial

end
end Indirect

/-! `polymorphic.h` -/
namespace Polymorphic
open Only (Kept KeptRes Any HOk AOk FOk Frame)
section
variable {L A R Ty V X : Type} [DecidableEq L] [DecidableEq R] [DecidableEq Ty]
variable {F : Only.Frame L A R (PBody Ty V)} (hbp : F.bp = cbPtr)

/-- The pointer in the control block is not in `G`. -/
abbrev COk' (F : Frame L A R (PBody Ty V)) : CB Ty V → Prop := fun c => ∀ r, c.p = some r → ¬ F.G r

include hbp in
theorem only_readCB {q : Addr} (hq : ¬ F.G q) : Only.Only F (COk' F) (readCB q) := by
  refine Only.bind (Only.readBody hq) fun b hb => ?_
  rw [hbp] at hb
  split
  · exact Only.pure' fun r hr => hb r (by simp [cbPtr, hr])
  · exact Only.undef _

theorem only_readCB' (q : Addr) : Only.Only F Any (readCB q) := by
  refine Only.bindU (Only.readBody' q) fun b => ?_
  split
  · exact Only.pure' trivial
  · exact Only.undef _

theorem only_readAny (q : Addr) : Only.Only F Any (readAny q) := by
  refine Only.bindU (only_readCB' q) fun c => ?_
  split
  · exact Only.pure' trivial
  · exact Only.undef _

theorem only_readU (ty : Ty) (q : Addr) : Only.Only F Any (readU ty q) := by
  refine Only.bindU (only_readCB' q) fun c => ?_
  split
  · exact Only.ite (Only.pure' trivial) (Only.undef _)
  · exact Only.undef _

include hbp

theorem only_writeU {q : Addr} (hq : ¬ F.G q) (v : V) : Only.Only F Any (writeU q v) := by
  refine Only.bind (only_readCB hbp hq) fun c hc => ?_
  split
  · exact Only.writeBody hq (by rw [hbp]; exact hc)
  · exact Only.undef _

theorem only_beginU (ty : Ty) {q : Addr} (hq : ¬ F.G q) (v : V) {how : How}
    (hh : ∀ q, how = .moveOf q → ¬ F.G q) : Only.Only F Any (beginU ty q v how) := by
  intro s P
  unfold beginU
  split
  · rename_i r t' p hs
    split
    · refine ⟨trivial, P.setB hq ?_ (P.log (.construct q how) ?_)⟩
      · rintro k r' ⟨⟩ hr
        rw [hbp] at hr
        exact P.body q _ r' hq hs (by rw [hbp]; exact hr)
      · rintro q' (rfl | h)
        · exact hq
        · exact hh q' h
    · trivial
  · trivial

theorem only_finishU (ty : Ty) {q : Addr} (hq : ¬ F.G q) (r : Except Exn V) {how : How}
    (hh : ∀ q, how = .moveOf q → ¬ F.G q) : Only.Only F Any (finishU ty q how r) := by
  cases r
  · exact Only.throwE _
  · exact only_beginU hbp ty hq _ hh

theorem only_beginCB (ty : Ty) {q : Addr} (hq : ¬ F.G q) :
    Only.Only F Any (beginCB ty q : M (St L A R (PBody Ty V)) Unit) := by
  intro s P
  unfold beginCB
  split
  · exact ⟨trivial, P.setB hq (by rintro k r' ⟨⟩ hr; rw [hbp] at hr; simp [cbPtr] at hr) P.trace⟩
  · trivial

theorem only_abortCB {q : Addr} (hq : ¬ F.G q) : Only.Only F Any (abortCB q : M (St L A R (PBody Ty V)) Unit) := by
  refine Only.bindU (only_readCB' q) fun c => ?_
  split
  · exact Only.undef _
  · exact Only.writeBody hq (by rw [hbp]; simp [cbPtr])

theorem only_setCBp {q r : Addr} (hq : ¬ F.G q) (hr : ¬ F.G r) :
    Only.Only F Any (setCBp q r : M (St L A R (PBody Ty V)) Unit) :=
  Only.bindU (only_readCB' q) fun c => Only.writeBody hq (by rw [hbp]; rintro r' ⟨⟩; exact hr)

/-- The operations of the owned types write only the objects they may. -/
structure POnly (F : Frame L A R (PBody Ty V)) (P : POps (St L A R (PBody Ty V)) A Ty X) : Prop where
  make : ∀ ty {a d} xs, ¬ F.G d → Only.Only F Any (P.make ty a d xs)
  copyCtor : ∀ ty {a d} q, ¬ F.G d → Only.Only F Any (P.copyCtor ty a d q)
  moveCtor : ∀ ty {a d q}, ¬ F.G d → ¬ F.G q → Only.Only F Any (P.moveCtor ty a d q)
  dtor : ∀ ty a {d}, ¬ F.G d → Only.Only F Any (P.dtor ty a d)
  block : ∀ a {d m}, ¬ F.G d → Only.Only F Any m → Only.Only F Any (P.block a d m)

omit hbp in
theorem POnly.makeFwd {P : POps (St L A R (PBody Ty V)) A Ty X} (h : POnly F P) (ty : Ty) {a : A} {d : Addr} (hd : ¬ F.G d)
    {u : Fwd X} (hu : FOk F u) : Only.Only F Any (P.makeFwd ty a d u) := by
  cases u
  · exact h.make _ _ hd
  · exact h.copyCtor _ _ hd
  · exact h.moveCtor _ hd hu

theorem only_plainP (P : PSpec Ty V X) : POnly F (plainP P) where
  make ty _ _ xs hd := Only.bindU Only.choose fun _ => only_finishU hbp ty hd _ (by simp)
  copyCtor ty _ _ q hd := Only.bindU (only_readU ty q) fun _ => Only.bindU Only.choose fun _ =>
    only_finishU hbp ty hd _ (by simp)
  moveCtor ty _ _ _ hd hq := Only.bindU (only_readU ty _) fun _ => Only.bindU Only.choose fun _ =>
    Only.bindU (only_writeU hbp hq _) fun _ => only_finishU hbp ty hd _ (by rintro _ h; cases h; exact hq)
  dtor ty _ _ hd := Only.bindU (only_readU ty _) fun _ => Only.bind (only_readCB hbp hd) fun c hc =>
    Only.bindU (Only.writeBody hd (by rw [hbp]; exact hc)) fun _ => Only.emit (by rintro p rfl; exact hd)
  block _ _ _ _ h := h

theorem only_cbCtor (ty : Ty) (a : A) {q : Addr} (hq : ¬ F.G q) {k : A → Addr → M (St L A R (PBody Ty V)) Unit}
    (hk : ∀ b p, ¬ F.G p → Only.Only F Any (k b p)) : Only.Only F Any (cbCtor ty a q k) :=
  Only.bindU (only_beginCB hbp ty hq) fun _ => Only.bindU (Only.onThrow (hk _ q hq) (only_abortCB hbp hq)) fun _ =>
    only_setCBp hbp hq hq

variable (tr : ATraits A R) {P : POps (St L A R (PBody Ty V)) A Ty X} (TT : POnly F P) {x y : L}

include TT in
theorem only_createControlBlock (ty : Ty) (a : A) {k : A → Addr → M (St L A R (PBody Ty V)) Unit}
    (hk : ∀ b p, ¬ F.G p → Only.Only F Any (k b p)) : Only.Only F (AOk F) (createControlBlock tr P ty a k) := by
  refine Only.bind (Only.allocate (by rw [hbp]; rfl) _) fun p hp => ?_
  refine Only.bindU (Only.onThrow (TT.block _ hp (only_cbCtor hbp ty _ hp hk)) (Only.deallocate _ hp)) fun _ => ?_
  exact Only.pure' hp

omit hbp in
theorem only_valueless (x : L) : Only.Only F Any (valueless x) :=
  Only.bindU (Only.getH' x) fun _ => Only.pure' trivial

omit hbp in
theorem only_getAllocator (x : L) : Only.Only F Any (getAllocator x) :=
  Only.bindU (Only.getH' x) fun _ => Only.pure' trivial

omit hbp in
theorem only_derefCB (hx : F.W x) : Only.Only F (AOk F) (derefCB x) := by
  refine Only.bind (Only.getH hx) fun h hh => ?_
  split
  · rename_i p hp; exact Only.pure' (hh p hp)
  · exact Only.undef _

omit hbp in
theorem only_derefCB' (x : L) : Only.Only F Any (derefCB x) := by
  refine Only.bindU (Only.getH' x) fun h => ?_
  split
  · exact Only.pure' trivial
  · exact Only.undef _

theorem only_deref (hx : F.W x) : Only.Only F (AOk F) (deref x) := by
  refine Only.bind (only_derefCB hx) fun q hq => Only.bind (only_readCB hbp hq) fun c hc => ?_
  split
  · rename_i p hp; exact Only.pure' (hc p hp)
  · exact Only.undef _

omit hbp in
theorem only_deref' (x : L) : Only.Only F Any (deref x) := by
  refine Only.bindU (only_derefCB' x) fun q => Only.bindU (only_readCB' q) fun c => ?_
  split
  · exact Only.pure' trivial
  · exact Only.undef _

omit hbp in
theorem only_swap (hx : F.W x) (hy : F.W y) : Only.Only F Any (swap tr x y) := by
  unfold swap
  refine Only.noexcept (Only.bind (Only.getH hx) fun t ht => Only.bind (Only.getH hy) fun o ho => ?_)
  refine Only.ite ?_ (Only.ite ?_ (Only.undef _))
  · exact Only.bindU (Only.setAlloc hx _) fun _ => Only.bindU (Only.setAlloc hy _) fun _ =>
      Only.bindU (Only.setP hx ho) fun _ => Only.setP hy ht
  · exact Only.bindU (Only.setP hx ho) fun _ => Only.setP hy ht

omit hbp in
theorem only_friendSwap (hx : F.W x) (hy : F.W y) : Only.Only F Any (friendSwap tr x y) :=
  Only.noexcept (only_swap tr hx hy)

include TT

theorem only_vclone (q : Addr) (a : A) : Only.Only F (AOk F) (vclone tr P q a) :=
  Only.bindU (only_readCB' q) fun c => only_createControlBlock hbp tr TT c.ty a fun _ _ hp => TT.copyCtor _ q hp

theorem only_vmove {q : Addr} (hq : ¬ F.G q) (a : A) : Only.Only F (AOk F) (vmove tr P q a) :=
  Only.bindU (only_readCB' q) fun c => only_createControlBlock hbp tr TT c.ty a fun _ _ hp => TT.moveCtor _ hp hq

omit hbp in
theorem only_reset (hx : F.W x) : Only.Only F Any (reset tr P x) := by
  unfold reset
  refine Only.noexcept (Only.bind (Only.getH hx) fun h hh => ?_)
  split
  · exact Only.pure' trivial
  · rename_i p hp
    exact Only.bindU (Only.bindU (only_readCB' p) fun c => Only.bindU (TT.dtor _ _ (hh p hp)) fun _ =>
      Only.deallocate _ (hh p hp)) fun _ => Only.setP hx (by simp)

omit hbp in
theorem only_dtor (hx : F.W x) : Only.Only F Any (dtor tr P x) :=
  Only.noexcept (Only.bindU (only_reset tr TT hx) fun _ => Only.endLife hx)

theorem only_ctorCopyA (a : A) (y : L) : Only.Only F (HOk F) (ctorCopyA tr P a y) := by
  unfold ctorCopyA
  refine Only.bindU (only_valueless y) fun b => Only.ite ?_ (Only.pure' (fun _ h => nomatch h))
  refine Only.bindU (only_derefCB' y) fun q => ?_
  refine Only.bind (only_vclone hbp tr TT q a) fun p hp => Only.pure' ?_
  rintro p' ⟨⟩; exact hp

theorem only_ctorCopy (y : L) : Only.Only F (HOk F) (ctorCopy tr P y) :=
  Only.bindU (Only.getH' y) fun _ => only_ctorCopyA hbp tr TT _ y

theorem only_ctorMoveA (a : A) (hy : F.W y) : Only.Only F (HOk F) (ctorMoveA tr P a y) := by
  unfold ctorMoveA
  refine Only.noexcept (Only.bind (Only.getH hy) fun o ho => ?_)
  refine Only.ite ?_ (Only.ite ?_ ?_)
  · exact Only.bindU (Only.setP hy (by simp)) fun _ => Only.pure' ho
  · exact Only.bindU (Only.setP hy (by simp)) fun _ => Only.pure' ho
  · refine Only.bindU (only_valueless y) fun b => Only.ite ?_ (Only.pure' (fun _ h => nomatch h))
    refine Only.bind (only_derefCB hy) fun q hq => ?_
    refine Only.bind (only_vmove hbp tr TT hq a) fun p hp => Only.pure' ?_
    rintro p' ⟨⟩; exact hp

theorem only_ctorMove (hy : F.W y) : Only.Only F (HOk F) (ctorMove tr P y) :=
  Only.noexcept (Only.bindU (Only.getH' y) fun _ => only_ctorMoveA hbp tr TT _ hy)

theorem only_assignCopy (hx : F.W x) (y : L) : Only.Only F Any (assignCopy tr P x y) := by
  have hend : Only.Only F Any (do
      if tr.pocca then
        let o ← getH y
        setAlloc x o.alloc
      pure x : M (St L A R (PBody Ty V)) L) := by
    refine Only.ite ?_ ?_
    · exact Only.bindU (Only.getH' y) fun _ => Only.bindU (Only.setAlloc hx _) fun _ => Only.pure' trivial
    · exact Only.pure' trivial
  unfold assignCopy
  refine Only.ite (Only.pure' trivial) ?_
  refine Only.bindU (only_valueless y) fun b => Only.ite ?_ ?_
  · exact Only.bindU (only_reset tr TT hx) fun _ => hend
  · refine Only.bindU (only_derefCB' y) fun q => Only.bindU (Only.getH' x) fun t => Only.bindU (Only.getH' y) fun o => ?_
    refine Only.bind (only_vclone hbp tr TT q _) fun p hp => ?_
    exact Only.bindU (only_reset tr TT hx) fun _ => Only.bindU (Only.setP hx (by rintro q ⟨⟩; exact hp)) fun _ => hend

theorem only_assignMove (hx : F.W x) (hy : F.W y) : Only.Only F Any (assignMove tr P x y) := by
  have hend : Only.Only F Any (do
      if tr.pocma then
        let o ← getH y
        setAlloc x o.alloc
      pure x : M (St L A R (PBody Ty V)) L) := by
    refine Only.ite ?_ ?_
    · exact Only.bindU (Only.getH' y) fun _ => Only.bindU (Only.setAlloc hx _) fun _ => Only.pure' trivial
    · exact Only.pure' trivial
  unfold assignMove
  refine Only.noexcept (Only.ite (Only.pure' trivial) ?_)
  refine Only.bindU (only_valueless y) fun b => Only.ite ?_ ?_
  · exact Only.bindU (only_reset tr TT hx) fun _ => hend
  · refine Only.bind (Only.getH hx) fun t ht => Only.bind (Only.getH hy) fun o ho => Only.ite ?_ ?_
    · exact Only.bindU (Only.setP hx ho) fun _ => Only.bindU (Only.setP hy ht) fun _ =>
        Only.bindU (only_reset tr TT hy) fun _ => hend
    · refine Only.bind (only_derefCB hy) fun q hq => ?_
      refine Only.bind (only_vmove hbp tr TT hq _) fun p hp => ?_
      exact Only.bindU (only_reset tr TT hx) fun _ => Only.bindU (Only.setP hx (by rintro q ⟨⟩; exact hp)) fun _ => hend

omit TT

theorem only_evalSrc {u : Src L X} (hu : ∀ z, Spec.movedSrc u = some z → F.W z) :
    Only.Only F (FOk F) (evalSrc u : M (St L A R (PBody Ty V)) (Fwd X)) := by
  cases u with
  | arg x => exact Only.pure' trivial
  | lval y => exact Only.bindU (only_deref' y) fun _ => Only.pure' trivial
  | rval y => exact Only.bind (only_deref hbp (hu y rfl)) fun _ h => Only.pure' h

omit hbp in
theorem pmoved_from {a : Option A} {ty : Ty} {u : Src L X} {z : L} (h : Spec.movedSrc u = some z) :
    Spec.pmovedFrom (.make x a (.from ty u) : POp L A Ty V X) = some z := by
  cases u <;> first | exact h | cases h

variable (Q : PSpec Ty V X)

theorem only_construct (a : Option A) {c : PCtor L Ty X}
    (hc : ∀ z, Spec.pmovedFrom (.make x a c : POp L A Ty V X) = some z → F.W z) :
    Only.Only F (HOk F) (construct tr (plainP Q) a c) := by
  have TT := only_plainP (F := F) hbp Q
  have hm : ∀ (b : A) (ty : Ty) (k : A → Addr → M (St L A R (PBody Ty V)) Unit), (∀ b p, ¬ F.G p → Only.Only F Any (k b p)) →
      Only.Only F (HOk F) (do
        let p ← createControlBlock tr (plainP Q) ty b k
        pure ⟨some p, b⟩) := fun b ty k hk =>
    Only.bind (only_createControlBlock hbp tr TT ty b hk) fun p hp => Only.pure' (by rintro q ⟨⟩; exact hp)
  cases a <;> cases c <;> simp only [construct]
  · exact hm _ _ _ fun _ _ hp => TT.make _ _ hp
  · exact Only.bind (only_evalSrc hbp fun z hz => hc z (pmoved_from hz)) fun _ hu => hm _ _ _ fun _ _ hp => TT.makeFwd _ hp hu
  · exact hm _ _ _ fun _ _ hp => TT.make _ _ hp
  · exact hm _ _ _ fun _ _ hp => TT.make _ _ hp
  · exact hm _ _ _ fun _ _ hp => TT.make _ _ hp
  · exact Only.bind (only_evalSrc hbp fun z hz => hc z (pmoved_from hz)) fun _ hu => hm _ _ _ fun _ _ hp => TT.makeFwd _ hp hu
  · exact hm _ _ _ fun _ _ hp => TT.make _ _ hp
  · exact hm _ _ _ fun _ _ hp => TT.make _ _ hp

theorem only_step {o : POp L A Ty V X} (ho : ∀ z ∈ Spec.pchanges o, F.W z) : Only.Only F Any (step tr (plainP Q) o) := by
  have TT := only_plainP (F := F) hbp Q
  have hmv : ∀ z, Spec.pmovedFrom o = some z → F.W z := fun z hz => ho z (by simp [Spec.pchanges, hz])
  have hrb : ∀ z ∈ Spec.prebinds o, F.W z := fun z hz => ho z (by simp [Spec.pchanges, hz])
  cases o with
  | make x a c =>
    have hx : F.W x := hrb x (by simp [Spec.prebinds])
    exact Only.bind (only_construct hbp tr Q a hmv) fun _ hh => Only.bindU (Only.emplace hx hh) fun _ => Only.pure' trivial
  | copy x y =>
    have hx : F.W x := hrb x (by simp [Spec.prebinds])
    exact Only.bind (only_ctorCopy hbp tr TT y) fun _ hh => Only.bindU (Only.emplace hx hh) fun _ => Only.pure' trivial
  | copyA x a y =>
    have hx : F.W x := hrb x (by simp [Spec.prebinds])
    exact Only.bind (only_ctorCopyA hbp tr TT a y) fun _ hh => Only.bindU (Only.emplace hx hh) fun _ => Only.pure' trivial
  | move x y =>
    have hx : F.W x := hrb x (by simp [Spec.prebinds])
    have hy : F.W y := hrb y (by simp [Spec.prebinds])
    exact Only.bind (only_ctorMove hbp tr TT hy) fun _ hh => Only.bindU (Only.emplace hx hh) fun _ => Only.pure' trivial
  | moveA x a y =>
    have hx : F.W x := hrb x (by simp [Spec.prebinds])
    have hy : F.W y := hrb y (by simp [Spec.prebinds])
    exact Only.bind (only_ctorMoveA hbp tr TT a hy) fun _ hh => Only.bindU (Only.emplace hx hh) fun _ => Only.pure' trivial
  | destroy x =>
    have hx : F.W x := hrb x (by simp [Spec.prebinds])
    exact Only.bindU (only_dtor tr TT hx) fun _ => Only.pure' trivial
  | assignCopy x y =>
    have hx : F.W x := hrb x (by simp [Spec.prebinds])
    exact Only.bindU (only_assignCopy hbp tr TT hx y) fun _ => Only.pure' trivial
  | assignMove x y =>
    have hx : F.W x := hrb x (by simp [Spec.prebinds])
    have hy : F.W y := hrb y (by simp [Spec.prebinds])
    exact Only.bindU (only_assignMove hbp tr TT hx hy) fun _ => Only.pure' trivial
  | deref x => exact Only.bindU (only_deref' x) fun _ => Only.bindU (only_readAny _) fun _ => Only.pure' trivial
  | arrow x => exact Only.bindU (only_deref' x) fun _ => Only.bindU (only_readAny _) fun _ => Only.pure' trivial
  | modify x f =>
    have hx : F.W x := ho x (by simp [Spec.pchanges])
    exact Only.bind (only_deref hbp hx) fun _ hp => Only.bindU (only_readAny _) fun _ =>
      Only.bindU (only_writeU hbp hp _) fun _ => Only.pure' trivial
  | valueless x => exact Only.bindU (only_valueless x) fun _ => Only.pure' trivial
  | getAllocator x => exact Only.bindU (only_getAllocator x) fun _ => Only.pure' trivial
  | swap x y =>
    have hx : F.W x := hrb x (by simp [Spec.prebinds])
    have hy : F.W y := hrb y (by simp [Spec.prebinds])
    exact Only.bindU (only_swap tr hx hy) fun _ => Only.pure' trivial
  | friendSwap x y =>
    have hx : F.W x := hrb x (by simp [Spec.prebinds])
    have hy : F.W y := hrb y (by simp [Spec.prebinds])
    exact Only.bindU (only_friendSwap tr hx hy) fun _ => Only.pure' trivial

end
end Polymorphic

/-! Consequences -/
namespace Only
section
variable {L A R B O : Type} [DecidableEq L] [DecidableEq R] [Body B]

/-- The frame of a call. -/
def callFrame (bp : B → Option Addr) (ws : List L) (s : St L A R B) (e : Env) : Frame L A R B where
  W z := z ∈ ws
  G p := ¬ Spec.Mine ws s e p
  bp := bp
  i := s

theorem writesOnly {bp : B → Option Addr} {ws : List L} {s s' : St L A R B} {e : Env} {m : M (St L A R B) O}
    {a : Seen O}
    (hb : ∀ p c r, Spec.Mine ws s e p → s.heap p = some c → bp c.body = some r → Spec.Mine ws s e r)
    (hm : Only (callFrame bp ws s e) Any m) (h : Spec.ended (m (s.enter e)) = some (a, s')) :
    Spec.WritesOnly ws (Spec.Mine ws s e) s s' := by
  have P : Kept (callFrame bp ws s e) (s.enter e) := {
    pick := fun n h => h (.inr ⟨n, rfl⟩)
    own := fun l k p hl hk hp h => h (.inl ⟨l, hl, by
      have : s.hs l = some k := hk
      simp [addr, this, hp]⟩)
    body := fun p c r hp hc hr h => h (hb p c r (Classical.not_not.1 hp) hc hr)
    fhs := fun _ _ => rfl
    fheap := fun _ _ => rfl
    trace := ⟨[], (List.append_nil _).symm, by simp⟩ }
  have Q : Kept (callFrame bp ws s e) s' := by
    have := hm _ P
    revert this h
    cases m (s.enter e) <;> simp only [KeptRes, Spec.ended, Option.some.injEq, Prod.mk.injEq, reduceCtorEq, false_implies]
    · rintro ⟨-, rfl⟩ h; exact h.2
    · rintro ⟨-, rfl⟩ h; exact h
  obtain ⟨w, h1, h2⟩ := Q.trace
  exact ⟨Q.fhs, Q.fheap, ⟨w, h1, fun ev hev p hp => Classical.not_not.1 (h2 ev hev p hp)⟩⟩

end
end Only
end Verif
