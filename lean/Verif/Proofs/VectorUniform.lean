import Verif.Proofs.VectorPlaced

/-! Vectors whose elements all have the same allocator. -/

set_option autoImplicit false
set_option linter.unusedSectionVars false
set_option linter.unusedSimpArgs false

namespace Verif.Vector
open Verif Spec Composite

section
variable {C S A R W X I J F : Type} [DecidableEq C]

/-- All functions that make elements give them allocator `α`, and no other function changes it. -/
structure Uniform (α : A) (ρ : Rules A W) : Prop where
  make : ∀ {b}, ρ.Make b → b.alloc = α
  copy : ∀ {b b'}, ρ.Copy b b' → b'.alloc = α
  move : ∀ {b b' r}, ρ.Move b b' r → b'.alloc = α ∧ r.alloc = b.alloc
  moveThrew : ∀ {b r}, ρ.MoveThrew b r → r.alloc = b.alloc
  assign : ∀ {a b a'}, ρ.Assign a b a' → a.alloc = α → b.alloc = α → a'.alloc = α
  assignThrew : ∀ {a a'}, ρ.AssignThrew a a' → a'.alloc = a.alloc
  moveAssign : ∀ {a b a' b'}, ρ.MoveAssign a b a' b' → a.alloc = α → b.alloc = α → a'.alloc = α ∧ b'.alloc = α
  moveAssignThrew : ∀ {a b b'}, ρ.MoveAssignThrew a b b' → b'.alloc = b.alloc

theorem uniform_scoped (α : A) (tr : ATraits A R) (T : TSpec W X) : Uniform α (Rules.scoped α tr T) where
  make h := h.1
  copy h := h.1
  move h := ⟨h.1, h.2.1⟩
  moveThrew h := h.2.1
  assign h h1 h2 := by
    have : _ = if tr.pocca then _ else _ := h.1
    rw [this]; split <;> assumption
  assignThrew h := h.1
  moveAssign h h1 h2 := by
    have : _ = if tr.pocma then _ else _ := h.alloc
    refine ⟨?_, ?_⟩
    · rw [this]; split <;> assumption
    · rw [h.keep]; exact h2
  moveAssignThrew h := h.2.1

/-- Every element of every vector has allocator `α`. -/
def AllIn (α : A) (V : VState C A W) : Prop := ∀ x bs, V.lists x = some bs → ∀ b ∈ bs, b.alloc = α

variable {α : A} {ρ : Rules A W} {V : VState C A W} {abs : S → Boxes (Cell C) A W} {Ok : S → Prop}
variable {H : Holder (Cell C) S W I F} {mk : C → J → Env → M S Unit} {s : VecS C S} {N : Buf} {bs bs' : List (Box A W)}

theorem AllIn.setList (h : AllIn α V) {x : C} {l : Option (List (Box A W))} (hl : ∀ bs, l = some bs → ∀ b ∈ bs, b.alloc = α) :
    AllIn α (V.setList x l) := by
  intro z bs hz b hb
  simp only [VState.setList] at hz
  split at hz
  · exact hl bs hz b hb
  · exact h z bs hz b hb

theorem AllIn.some (h : AllIn α V) {x : C} {l : List (Box A W)} (hl : ∀ b ∈ l, b.alloc = α) :
    AllIn α (V.setList x (some l)) := h.setList (by rintro _ h; cases h; exact hl)

theorem AllIn.set (h : AllIn α V) {r : Ref C} {c q : Box A W} (hr : V.get r = Option.some c) (hq : q.alloc = c.alloc) :
    AllIn α (V.set r q) := by
  cases r with
  | var y => exact h
  | «at» x i =>
    simp only [VState.get] at hr
    cases hl : V.lists x with
    | none => rw [hl] at hr; cases hr
    | some l =>
      rw [hl] at hr
      have hc : c.alloc = α := h x l hl c (List.mem_of_getElem? hr)
      simp only [VState.set, hl, Option.map_some]
      refine h.some fun b hb => ?_
      rcases List.mem_or_eq_of_mem_set hb with hb | rfl
      · exact h x l hl b hb
      · rw [hq, hc]

theorem each_all {P : Box A W → Box A W → Prop} (h : Each P bs bs') (hP : ∀ a b, P a b → b.alloc = α) :
    ∀ b ∈ bs', b.alloc = α := by
  intro b hb
  obtain ⟨i, hi⟩ := List.mem_iff_getElem?.1 hb
  have hlt := (List.getElem?_eq_some_iff.1 hi).1
  exact hP _ _ (h.2 i _ b (List.getElem?_eq_getElem (by rw [← h.1]; exact hlt)) hi)

theorem relocated_all (U : Uniform α ρ) (h : Relocated ρ H bs bs') : ∀ b ∈ bs', b.alloc = α := by
  unfold Relocated at h
  split at h
  · exact each_all h fun _ _ ⟨_, h⟩ => (U.move h).1
  · exact each_all h fun _ _ h => U.copy h

theorem shifted_all (U : Uniform α ρ) {t r : Box A W} {res : List (Box A W)} (h : Shifted ρ t bs res r) (ht : t.alloc = α)
    (hb : ∀ b ∈ bs, b.alloc = α) : (∀ b ∈ res, b.alloc = α) ∧ r.alloc = α := by
  induction h with
  | nil => exact ⟨by simp, ht⟩
  | snoc h hm ih =>
    obtain ⟨h1, h2⟩ := ih (fun b h => hb b (by simp [h]))
    obtain ⟨h3, h4⟩ := U.moveAssign hm h2 (hb _ (by simp))
    refine ⟨?_, h4⟩
    intro b hb
    simp only [List.mem_append, List.mem_singleton] at hb
    rcases hb with hb | rfl
    · exact h1 b hb
    · exact h3

theorem call_all (B : Follows ρ abs Ok H) (hmk : Makes abs Ok mk) (U : Uniform α ρ) (K : Inv abs Ok s)
    (hA : AllIn α (vstate abs s)) (o : VecOp C I J F) (hN : FreshBuf s N) (hl : VecLegal (vstate abs s) o)
    (es : Nat → Nat → Env) :
    Ends (call H mk o N es s) (fun s' => AllIn α (vstate abs s')) (fun s' => AllIn α (vstate abs s')) True := by
  cases o with
  | make y j =>
    refine (make_call hmk K hl j es).mono ?_ ?_ (fun h => h.elim)
    · rintro s' ⟨_, b, h⟩; rw [h]; exact hA
    · rintro s' ⟨_, h⟩; rw [h]; exact hA
  | destroyVar y =>
    obtain ⟨b, hb⟩ := hl
    refine (destroyVar_call B K hb es).mono ?_ (fun _ h => h.elim) (fun h => h.elim)
    rintro s' ⟨_, h⟩; rw [h]; exact hA
  | empty x =>
    refine (empty_call K hN hl es).mono ?_ (fun _ h => h.elim) (fun h => h.elim)
    rintro s' ⟨_, h⟩; rw [h]; exact hA.some (by simp)
  | copy x y =>
    obtain ⟨hx, bs, hy⟩ := hl
    refine (copy_call B K hN hx hy es).mono ?_ ?_ (fun h => h.elim)
    · rintro s' ⟨_, bs', h1, h⟩; rw [h]; exact hA.some (each_all h1 fun _ _ h => U.copy h)
    · rintro s' ⟨_, h⟩; rw [h]; exact hA
  | move x y =>
    obtain ⟨hx, bs, hy⟩ := hl
    refine (move_call K hN hx hy es).mono ?_ (fun _ h => h.elim) (fun h => h.elim)
    rintro s' ⟨_, h⟩; rw [h]; exact (hA.some (hA y bs hy)).some (by simp)
  | destroy x =>
    obtain ⟨bs, hx⟩ := hl
    refine (destroy_call B K hx es).mono ?_ (fun _ h => h.elim) (fun h => h.elim)
    rintro s' ⟨_, h⟩; rw [h]; exact hA.setList (by simp)
  | push x a =>
    have key : ∀ {bs}, (vstate abs s).lists x = some bs → ArgOk (vstate abs s) a →
        Ends (call H mk (.push x a) N es s) (fun s' => AllIn α (vstate abs s')) (fun s' => AllIn α (vstate abs s')) True := by
      intro bs hx ha
      have made : ∀ b σ₁, ArgMade ρ (vstate abs s) b σ₁ a → b.alloc = α ∧ AllIn α σ₁ := by
        intro b σ₁ h
        cases a with
        | make i => exact ⟨U.make h.1, by rw [h.2]; exact hA⟩
        | copy r => obtain ⟨c, hc, h1, h2⟩ := h; exact ⟨U.copy h1, by rw [h2]; exact hA⟩
        | move r => obtain ⟨c, q, hc, h1, h2⟩ := h; exact ⟨(U.move h1).1, by rw [h2]; exact hA.set hc (U.move h1).2⟩
      refine (push_call B K hN hx ha es).mono ?_ ?_ (fun h => h.elim)
      · rintro s' ⟨_, b, σ₁, bs₁, bs', hm, h1, h2, h3, h⟩
        obtain ⟨hb, hA₁⟩ := made b σ₁ hm
        rw [h]
        refine hA₁.some fun c hc => ?_
        simp only [List.mem_append, List.mem_singleton] at hc
        rcases hc with hc | rfl
        · by_cases hr : Room s x
          · rw [h2 hr] at hc; exact hA₁ x bs₁ h1 c hc
          · exact relocated_all U (h3 hr) c hc
        · exact hb
      · rintro s' ⟨_, h | ⟨_, _, b, hm⟩⟩
        · cases a with
          | make i => rw [show vstate abs s' = vstate abs s from h]; exact hA
          | copy r => rw [show vstate abs s' = vstate abs s from h]; exact hA
          | move r =>
            rcases h with h | ⟨c, q, hc, h1, h2⟩
            · rw [h]; exact hA
            · rw [h2]; exact hA.set hc (U.moveThrew h1)
        · exact (made b _ hm).2
    cases a with
    | make i => obtain ⟨bs, hx⟩ := hl; exact key hx trivial
    | copy r => obtain ⟨⟨bs, hx⟩, hr⟩ := hl; exact key hx hr
    | move r => obtain ⟨⟨bs, hx⟩, hr⟩ := hl; exact key hx hr
  | pop x =>
    obtain ⟨bs, hx, h0⟩ := hl
    refine (pop_call B K hx h0 es).mono ?_ (fun _ h => h.elim) (fun h => h.elim)
    rintro s' ⟨_, h⟩; rw [h]; exact hA.some fun b hb => hA x bs hx b (List.dropLast_subset _ hb)
  | reserve x n =>
    obtain ⟨bs, hx⟩ := hl
    refine (reserve_call B K hN hx n es).mono ?_ ?_ (fun h => h.elim)
    · rintro s' ⟨_, bs', h1, h2, h, _⟩
      rw [h]
      refine hA.some ?_
      by_cases hc : n ≤ capacity s x
      · rw [h1 hc]; exact hA x bs hx
      · exact relocated_all U (h2 (by omega))
    · rintro s' ⟨_, h⟩; rw [h]; exact hA
  | erase x i =>
    obtain ⟨bs, hx, hi⟩ := hl
    have hall := hA x bs hx
    have hdrop : ∀ k, ∀ b ∈ bs.drop k, b.alloc = α := fun k b hb => hall b (List.mem_of_mem_drop hb)
    have ht : (bs[i]).alloc = α := hall _ (List.getElem_mem hi)
    refine (erase_call B K hx (List.getElem?_eq_getElem hi) es).mono ?_ ?_ (fun _ => trivial)
    · rintro s' ⟨_, res, r, h1, h⟩
      rw [h]
      refine hA.some fun b hb => ?_
      simp only [List.mem_append] at hb
      rcases hb with hb | hb
      · exact hall b (List.mem_of_mem_take hb)
      · exact (shifted_all U h1 ht (hdrop _)).1 b hb
    · rintro s' ⟨_, j, a, c, c', res, h1, h2, h3, h⟩
      rw [h]
      obtain ⟨h4, h5⟩ := shifted_all U h1 ht (fun b hb => hdrop _ b (List.mem_of_mem_take hb))
      have hc := hdrop _ c (List.mem_of_getElem? h2)
      refine hA.some fun b hb => ?_
      simp only [List.mem_append, List.mem_cons, List.not_mem_nil, or_false] at hb
      rcases hb with hb | (hb | rfl | rfl) | hb
      · exact hall b (List.mem_of_mem_take hb)
      · exact h4 b hb
      · exact h5
      · rw [U.moveAssignThrew h3, hc]
      · exact hdrop _ b hb
  | assignCopy x y =>
    obtain ⟨⟨as, hx⟩, bs, hy⟩ := hl
    by_cases hne : x = y
    · subst hne
      refine (assignSelf_call K hx es).mono ?_ (fun _ h => h.elim) (fun h => h.elim)
      rintro s' ⟨_, h⟩; rw [h]; exact hA
    · refine (assignCopy_call B K hN hne hx hy es).mono ?_ ?_ (fun h => h.elim)
      · rintro s' ⟨_, as', ⟨h1, h2⟩, h⟩
        rw [h]
        refine hA.some fun b hb => ?_
        obtain ⟨i, hi⟩ := List.mem_iff_getElem?.1 hb
        have hlt := (List.getElem?_eq_some_iff.1 hi).1
        have hbi := List.getElem?_eq_getElem (l := bs) (i := i) (by rw [← h1]; exact hlt)
        have := h2 i _ b hbi hi
        cases ha : as[i]? with
        | none => rw [ha] at this; exact U.copy this
        | some a =>
          rw [ha] at this
          simp only at this
          split at this
          · exact U.copy this
          · exact U.assign this (hA x as hx a (List.mem_of_getElem? ha)) (hA y bs hy _ (List.mem_of_getElem? hbi))
      · rintro s' ⟨_, as', _, ⟨h1, h2⟩, h⟩
        rw [h]
        refine hA.some fun b hb => ?_
        obtain ⟨i, hi⟩ := List.mem_iff_getElem?.1 hb
        have hlt := (List.getElem?_eq_some_iff.1 hi).1
        have hai := List.getElem?_eq_getElem (l := as) (i := i) (by rw [← h1]; exact hlt)
        have haα := hA x as hx _ (List.mem_of_getElem? hai)
        rcases h2 i _ b hai hi with rfl | ⟨d, hd, h3 | h3⟩
        · exact haα
        · exact U.assign h3 haα (hA y bs hy _ (List.mem_of_getElem? hd))
        · rw [U.assignThrew h3, haα]
  | assignMove x y =>
    obtain ⟨hne, ⟨as, hx⟩, bs, hy⟩ := hl
    refine (assignMove_call B K hN hne hx hy es).mono ?_ (fun _ h => h.elim) (fun h => h.elim)
    rintro s' ⟨_, h⟩; rw [h]; exact (hA.some (hA y bs hy)).some (by simp)
  | swap x y =>
    obtain ⟨⟨as, hx⟩, bs, hy⟩ := hl
    refine (swap_call K hx hy es).mono ?_ (fun _ h => h.elim) (fun h => h.elim)
    rintro s' ⟨_, h⟩; rw [h]; exact (hA.some (hA y bs hy)).some (hA x as hx)
  | modify r f =>
    obtain ⟨a, v, hr⟩ := hl
    refine (modify_call B K f hr es).mono ?_ (fun _ h => h.elim) (fun h => h.elim)
    rintro s' ⟨_, h⟩; rw [h]; exact hA.set hr rfl

theorem Reach.all (B : Follows ρ abs Ok H) (hmk : Makes abs Ok mk) (U : Uniform α ρ) {init : S} (h0 : Ok init)
    (hd : ∀ l, abs init l = none) (h : Reach H mk abs init s) : AllIn α (vstate abs s) := by
  induction h with
  | init => intro x bs hx; cases hx
  | ret o N es h hl hN hc ih =>
    have := call_all B hmk U (h.inv B hmk h0 hd) ih o hN hl es; rw [hc] at this; exact this
  | threw o N es e h hl hN hc ih =>
    have := call_all B hmk U (h.inv B hmk h0 hd) ih o hN hl es; rw [hc] at this; exact this

/-- If move assignment hands over the value, the rest of the vector just moves down. -/
theorem shifted_exact {t r : Box A W} {res : List (Box A W)}
    (hm : ∀ {a b a' b'}, ρ.MoveAssign a b a' b' → a.alloc = α → b.alloc = α → a' = b ∧ b'.alloc = α)
    (h : Shifted ρ t bs res r) (ht : t.alloc = α) (hb : ∀ b ∈ bs, b.alloc = α) : res = bs ∧ r.alloc = α := by
  induction h with
  | nil => exact ⟨rfl, ht⟩
  | snoc h h1 ih =>
    obtain ⟨rfl, h2⟩ := ih (fun b h => hb b (by simp [h]))
    obtain ⟨rfl, h3⟩ := hm h1 h2 (hb _ (by simp))
    exact ⟨rfl, h3⟩

theorem plain_exact {tr : ATraits A R} {T : TSpec W X} (he : tr.eq α α = true) {a b a' b' : Box A W}
    (h : (Rules.plain tr T).MoveAssign a b a' b') (ha : a.alloc = α) (hb : b.alloc = α) : a' = b ∧ b'.alloc = α := by
  have h : AssignedMove tr T a b a' b' := h
  have h1 := (h.equal (by rw [ha, hb]; exact he)).1
  have h2 := h.alloc
  obtain ⟨aa, av⟩ := a
  obtain ⟨ba, bv⟩ := b
  obtain ⟨aa', av'⟩ := a'
  simp only at ha hb h1 h2
  subst ha hb h1
  refine ⟨?_, h.keep⟩
  rw [h2]; split <;> rfl

theorem placed_exact {tr : ATraits A R} {T : TSpec W X} (he : tr.eq α α = true) {a b a' b' : Box A (W × Addr)}
    (h : (Rules.placed tr T).MoveAssign a b a' b') (ha : a.alloc = α) (hb : b.alloc = α) : a' = b ∧ b'.alloc = α := by
  obtain ⟨h, h0⟩ : AssignedMove tr T _ _ _ _ ∧ (tr.eq a.alloc b.alloc = true → a'.val = b.val) := h
  have h1 := h0 (by rw [ha, hb]; exact he)
  clear h0
  have h2 : a'.alloc = if tr.pocma then b.alloc else a.alloc := h.alloc
  have h3 : b'.alloc = b.alloc := h.keep
  obtain ⟨aa, av⟩ := a
  obtain ⟨ba, bv⟩ := b
  obtain ⟨aa', av'⟩ := a'
  simp only at ha hb h1 h2
  subst ha hb h1
  refine ⟨?_, h3⟩
  rw [h2]; split <;> rfl

/-- `erase` if all elements have the same allocator. -/
theorem erase_uniform (B : Follows ρ abs Ok H) (K : Inv abs Ok s) {x : C} {i : Nat}
    (hx : (vstate abs s).lists x = some bs) (hi : i < bs.length) (hb : ∀ b ∈ bs, b.alloc = α)
    (hm : ∀ {a b a' b'}, ρ.MoveAssign a b a' b' → a.alloc = α → b.alloc = α → a' = b ∧ b'.alloc = α)
    (ht : ∀ {a b b'}, ρ.MoveAssignThrew a b b' → a.alloc = α → b.alloc = α → False)
    (hT : ∀ {a b}, ρ.Terminates a b → a.alloc = α → b.alloc = α → False) (es : Nat → Nat → Env) :
    Ends (call H mk (.erase x i) N es s)
      (fun s' => vstate abs s' = (vstate abs s).setList x (some (bs.eraseIdx i))) (fun _ => False) False := by
  have hdrop : ∀ k, ∀ b ∈ bs.drop k, b.alloc = α := fun k b h => hb b (List.mem_of_mem_drop h)
  have hti : (bs[i]).alloc = α := hb _ (List.getElem_mem hi)
  refine (erase_call B K hx (List.getElem?_eq_getElem hi) es).mono ?_ ?_ ?_
  · rintro s' ⟨_, res, r, h1, h⟩
    obtain ⟨rfl, _⟩ := shifted_exact hm h1 hti (hdrop _)
    rw [h, List.eraseIdx_eq_take_drop_succ]
  · rintro s' ⟨_, j, a, c, c', res, h1, h2, h3, h⟩
    exact ht h3 (shifted_exact hm h1 hti (fun b hb => hdrop _ b (List.mem_of_mem_take hb))).2
      (hdrop _ c (List.mem_of_getElem? h2))
  · rintro ⟨j, a, c, res, h1, h2, h3⟩
    exact hT h3 (shifted_exact hm h1 hti (fun b hb => hdrop _ b (List.mem_of_mem_take hb))).2
      (hdrop _ c (List.mem_of_getElem? h2))

/-- Moved elements are the same elements. -/
theorem relocated_same (hm : ∀ {b b' r}, ρ.Move b b' r → b' = b) (hn : H.nothrowMove = true) (h : Relocated ρ H bs bs') :
    bs' = bs := by
  unfold Relocated at h
  rw [if_pos hn] at h
  apply List.ext_getElem? fun i => ?_
  by_cases hi : i < bs.length
  · have h1 := List.getElem?_eq_getElem hi
    have h2 := List.getElem?_eq_getElem (l := bs') (i := i) (by rw [h.1]; exact hi)
    obtain ⟨r, h3⟩ := h.2 i _ _ h1 h2
    rw [h1, h2, hm h3]
  · rw [List.getElem?_eq_none (by rw [h.1]; omega), List.getElem?_eq_none (by omega)]

/-! ### Growth -/

variable {at_ : S → Cell C → Option Addr} {x : C}

theorem set_lists {r : Ref C} {q : Box A W} (hr : ∀ i, r ≠ .at x i) : (V.set r q).lists x = V.lists x := by
  cases r with
  | var y => rfl
  | «at» z i =>
    have : x ≠ z := by rintro rfl; exact hr i rfl
    simp [VState.set, VState.setList, this]

theorem push_keeps {abs : S → Boxes (Cell C) A (W × Addr)} {ρ : Rules A (W × Addr)} {bs : List (Box A (W × Addr))}
    (H : Holder (Cell C) S W I F) (B : Follows ρ abs Ok H.placed)
    (hm : ∀ {b b' r}, ρ.Move b b' r → b' = b) (K : Inv abs Ok s) (hn : H.nothrowMove = true) (hN : FreshBuf s N)
    (hx : (vstate abs s).lists x = some bs) (a : Arg C I) (hl : VecLegal (F := F) (J := J) (vstate abs s) (.push x a))
    (hself : ∀ i, a ≠ .move (.at x i)) (es : Nat → Nat → Env) :
    Ends (call H mk (.push x a) N es s) (fun s' => ∃ b, (vstate abs s').lists x = some (bs ++ [b]))
      (fun s' => (vstate abs s').lists x = some bs) False := by
  have ha : ArgOk (vstate abs s) a := by
    cases a with
    | make i => trivial
    | copy r => exact hl.2
    | move r => exact hl.2
  have made : ∀ b σ₁, ArgMade ρ (vstate abs s) b σ₁ a → σ₁.lists x = some bs := by
    intro b σ₁ h
    cases a with
    | make i => rw [h.2]; exact hx
    | copy r => obtain ⟨c, hc, h1, h2⟩ := h; rw [h2]; exact hx
    | move r =>
      obtain ⟨c, q, hc, h1, h2⟩ := h
      rw [h2, set_lists fun i h => hself i (by rw [h])]; exact hx
  have := push_call (mk := mk) B K hN hx ha es
  rw [call_placed] at this
  refine this.mono ?_ ?_ (fun h => h)
  · rintro s' ⟨_, b, σ₁, bs₁, bs', hmade, h1, h2, h3, h4⟩
    rw [made b σ₁ hmade] at h1; cases h1
    refine ⟨b, ?_⟩
    rw [h4]
    have : bs' = bs := by
      by_cases hr : Room s x
      · exact h2 hr
      · exact relocated_same (H := H.placed) hm hn (h3 hr)
    simp [VState.setList, this]
  · rintro s' ⟨_, h | ⟨_, _, b, hm⟩⟩
    · cases a with
      | make i => rw [show vstate abs s' = vstate abs s from h]; exact hx
      | copy r => rw [show vstate abs s' = vstate abs s from h]; exact hx
      | move r =>
        rcases h with h | ⟨c, q, hc, h1, h2⟩
        · rw [h]; exact hx
        · rw [h2, set_lists fun i h => hself i (by rw [h])]; exact hx
    · exact made b _ hm

theorem reserve_keeps {abs : S → Boxes (Cell C) A (W × Addr)} {ρ : Rules A (W × Addr)} {bs : List (Box A (W × Addr))}
    (H : Holder (Cell C) S W I F) (B : Follows ρ abs Ok H.placed)
    (hm : ∀ {b b' r}, ρ.Move b b' r → b' = b) (K : Inv abs Ok s) (hn : H.nothrowMove = true) (hN : FreshBuf s N)
    (hx : (vstate abs s).lists x = some bs) (n : Nat) (es : Nat → Nat → Env) :
    Ends (call H mk (.reserve x n) N es s) (fun s' => vstate abs s' = vstate abs s)
      (fun s' => vstate abs s' = vstate abs s) False := by
  have := reserve_call (mk := mk) B K hN hx n es
  rw [call_placed] at this
  refine this.mono ?_ (fun _ h => h.2) (fun h => h)
  rintro s' ⟨_, bs', h1, h2, h3, _⟩
  have : bs' = bs := by
    by_cases hc : n ≤ capacity s x
    · exact h1 hc
    · exact relocated_same (H := H.placed) hm hn (h2 (by omega))
  rw [h3, this, ← hx, setList_self]

end
end Verif.Vector
