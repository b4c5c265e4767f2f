import Verif.Proofs.IndirectFrame
import Verif.Proofs.IndirectEffects
import Verif.Proofs.VectorLaws

/-! Where the objects are that elements of vectors own. -/

set_option autoImplicit false
set_option linter.unusedSectionVars false
set_option linter.unusedSimpArgs false

namespace Verif.Vector
open Verif Spec Composite

theorem Ends.and {S : Type} {r : Res S Unit} {Q E Q' E' : S → Prop} {D D' : Prop} (h : Ends r Q E D) (h' : Ends r Q' E' D') :
    Ends r (fun s => Q s ∧ Q' s) (fun s => E s ∧ E' s) D := by
  cases r with
  | ok u s => exact ⟨h, h'⟩
  | threw e s => exact ⟨h, h'⟩
  | terminated => exact h
  | ub u => exact h.elim
  | diverged => exact h.elim

section
variable {L A R W X S I F : Type} [DecidableEq L]

/-- What the functions of an element do to addresses. -/
structure Located (tr : ATraits A R) (abs : S → Boxes L A W) (at_ : S → L → Option Addr) (Ok : S → Prop)
    (H : Holder L S W I F) : Prop where
  has : ∀ {s l b}, Ok s → abs s l = some b → (at_ s l).isSome = b.val.isSome
  make : ∀ {s x} (i : I) (e : Env), Ok s → abs s x = none →
    Ends (H.make x i e s) (fun s' => ∀ z, z ≠ x → at_ s' z = at_ s z) (fun s' => ∀ z, z ≠ x → at_ s' z = at_ s z) True
  copy : ∀ {s x y b} (e : Env), Ok s → abs s x = none → abs s y = some b →
    Ends (H.copy x y e s) (fun s' => ∀ z, z ≠ x → at_ s' z = at_ s z) (fun s' => ∀ z, z ≠ x → at_ s' z = at_ s z) True
  move : ∀ {s x y b} (e : Env), Ok s → abs s x = none → abs s y = some b →
    Ends (H.move x y e s) (fun s' => at_ s' x = at_ s y ∧ ∀ z, z ≠ x → z ≠ y → at_ s' z = at_ s z) (fun _ => True) True
  assignCopy : ∀ {s x y a b} (e : Env), Ok s → x ≠ y → abs s x = some a → abs s y = some b →
    Ends (H.assignCopy x y e s) (fun s' => ∀ z, z ≠ x → at_ s' z = at_ s z) (fun s' => ∀ z, z ≠ x → at_ s' z = at_ s z) True
  assignMove : ∀ {s x y a b} (e : Env), Ok s → x ≠ y → abs s x = some a → abs s y = some b →
    Ends (H.assignMove x y e s)
      (fun s' => (tr.eq a.alloc b.alloc = true → b.val.isSome → at_ s' x = at_ s y) ∧ ∀ z, z ≠ x → z ≠ y → at_ s' z = at_ s z)
      (fun s' => ∀ z, z ≠ y → at_ s' z = at_ s z) True
  destroy : ∀ {s x b} (e : Env), Ok s → abs s x = some b →
    Ends (H.destroy x e s) (fun s' => ∀ z, z ≠ x → at_ s' z = at_ s z) (fun _ => True) True
  modify : ∀ {s x a v} (f : F) (e : Env), Ok s → abs s x = some ⟨a, some v⟩ →
    Ends (H.modify x f e s) (fun s' => ∀ z, at_ s' z = at_ s z) (fun _ => True) True

variable {tr : ATraits A R} {T : TSpec W X} {abs : S → Boxes L A W} {at_ : S → L → Option Addr} {Ok : S → Prop}
variable {H : Holder L S W I F} {s s' : S} {x y : L} {b b' r : Box A W}

/-- The box with the address of `l`. -/
def tag (p : Option Addr) (b : Box A W) : Box A (W × Addr) := ⟨b.alloc, b.val.bind fun v => p.map fun q => (v, q)⟩

theorem placed_eq (s : S) (l : L) : placed abs at_ s l = (abs s l).map (tag (at_ s l)) := rfl

theorem unplaced_tag {p : Option Addr} (h : p.isSome = b.val.isSome) : unplaced (tag p b) = b := by
  obtain ⟨a, v⟩ := b
  cases v with
  | none => rfl
  | some v => cases p with
    | none => simp at h
    | some p => rfl

theorem tag_isSome {p : Option Addr} (h : p.isSome = b.val.isSome) : (tag p b).val.isSome = b.val.isSome := by
  obtain ⟨a, v⟩ := b
  cases v with
  | none => rfl
  | some v => cases p with
    | none => simp at h
    | some p => rfl

theorem placed_none : placed abs at_ s x = none ↔ abs s x = none := by simp [placed]

theorem placed_some {c : Box A (W × Addr)} (B : Located tr abs at_ Ok H) (hs : Ok s) (h : placed abs at_ s x = some c) :
    ∃ b, abs s x = some b ∧ c = tag (at_ s x) b ∧ unplaced c = b ∧ (at_ s x).isSome = b.val.isSome := by
  rw [placed_eq] at h
  cases hb : abs s x with
  | none => rw [hb] at h; cases h
  | some b =>
    rw [hb] at h
    cases h
    have := B.has hs hb
    exact ⟨b, rfl, rfl, unplaced_tag this, this⟩

theorem placed_put (h : abs s' = put (abs s) x b') (ha : ∀ z, z ≠ x → at_ s' z = at_ s z) :
    placed abs at_ s' = put (placed abs at_ s) x (tag (at_ s' x) b') := by
  funext z
  by_cases e : z = x
  · subst e; simp [placed_eq, h, put]
  · simp [placed_eq, h, put, e, ha z e]

theorem placed_same (h : abs s' = abs s) (ha : ∀ z, z ≠ x → at_ s' z = at_ s z) (hx : abs s x = none) :
    placed abs at_ s' = placed abs at_ s := by
  funext z
  by_cases e : z = x
  · subst e; simp [placed_eq, h, hx]
  · simp [placed_eq, h, ha z e]

theorem placed_put₂ (hne : x ≠ y) (h : abs s' = put (put (abs s) y r) x b') (ha : ∀ z, z ≠ x → z ≠ y → at_ s' z = at_ s z) :
    placed abs at_ s' = put (put (placed abs at_ s) y (tag (at_ s' y) r)) x (tag (at_ s' x) b') := by
  funext z
  by_cases e : z = x
  · subst e; simp [placed_eq, h, put]
  · by_cases e' : z = y
    · subst e'; simp [placed_eq, h, put, e]
    · simp [placed_eq, h, put, e, e', ha z e e']

theorem placed_drop (h : abs s' = drop (abs s) x) (ha : ∀ z, z ≠ x → at_ s' z = at_ s z) :
    placed abs at_ s' = drop (placed abs at_ s) x := by
  funext z
  by_cases e : z = x
  · subst e; simp [placed_eq, h, drop]
  · simp [placed_eq, h, drop, e, ha z e]

theorem put_self (σ : Boxes L A W) (x : L) : put σ x b x = some b := by simp [put]

theorem follows_placed (B : Behaves tr T abs Ok H) (P : Located tr abs at_ Ok H) :
    Follows (Rules.placed tr T) (placed abs at_) Ok H.placed where
  make := by
    intro s x i e hs hx
    rw [placed_none] at hx
    refine (Ends.and (B.make i e hs hx) (P.make i e hs hx)).mono ?_ ?_ (fun h => h)
    · rintro s' ⟨⟨h, a, v, hv⟩, ha⟩
      have hb : abs s' x = some ⟨a, some v⟩ := by rw [hv, put_self]
      exact ⟨h, _, tag_isSome (P.has h hb), placed_put hv ha⟩
    · rintro s' ⟨⟨h, hv⟩, ha⟩
      exact ⟨h, placed_same hv ha hx⟩
  copy := by
    intro s x y c e hs hx hy
    rw [placed_none] at hx
    obtain ⟨b, hb, rfl, hc, hp⟩ := placed_some P hs hy
    refine (Ends.and (B.copy e hs hx hb) (P.copy e hs hx hb)).mono ?_ ?_ (fun h => h)
    · rintro s' ⟨⟨h, b', hC, hv⟩, ha⟩
      refine ⟨h, _, ?_, placed_put hv ha⟩
      show CopyOf tr T (unplaced _) (unplaced _)
      rw [hc, unplaced_tag (P.has h (by rw [hv, put_self]))]
      exact hC
    · rintro s' ⟨⟨h, hv⟩, ha⟩
      exact ⟨h, placed_same hv ha hx⟩
  move := by
    intro s x y c e hs hx hy
    rw [placed_none] at hx
    obtain ⟨b, hb, rfl, hc, hp⟩ := placed_some P hs hy
    refine (Ends.and (B.move e hs hx hb) (P.move e hs hx hb)).mono ?_ (fun _ h => h.1.elim) (fun h => h)
    rintro s' ⟨⟨h, hv⟩, h1, ha⟩
    have hne : x ≠ y := by rintro rfl; rw [hx] at hb; cases hb
    refine ⟨h, _, _, ?_, placed_put₂ hne hv ha⟩
    rw [h1]
    exact ⟨rfl, rfl⟩
  assignCopy := by
    intro s x y c d e hs hne hx hy
    obtain ⟨a, ha, rfl, hc, hp⟩ := placed_some P hs hx
    obtain ⟨b, hb, rfl, hd, hq⟩ := placed_some P hs hy
    refine (Ends.and (B.assignCopy e hs hne ha hb) (P.assignCopy e hs hne ha hb)).mono ?_ ?_ (fun h => h)
    · rintro s' ⟨⟨h, a', hC, hv⟩, h1⟩
      refine ⟨h, _, ?_, placed_put hv h1⟩
      show AssignedCopy tr T (unplaced _) (unplaced _) (unplaced _)
      rw [hc, hd, unplaced_tag (P.has h (by rw [hv, put_self]))]
      exact hC
    · rintro s' ⟨⟨h, a', hC, hC', hv⟩, h1⟩
      refine ⟨h, _, ⟨hC, ?_⟩, placed_put hv h1⟩
      rw [tag_isSome (P.has h (by rw [hv, put_self])), hC', tag_isSome hp]
  assignMove := by
    intro s x y c d e hs hne hx hy
    obtain ⟨a, ha, rfl, hc, hp⟩ := placed_some P hs hx
    obtain ⟨b, hb, rfl, hd, hq⟩ := placed_some P hs hy
    refine (Ends.and (B.assignMove e hs hne ha hb) (P.assignMove e hs hne ha hb)).mono ?_ ?_ (fun h => h)
    · rintro s' ⟨⟨h, a', b', hC, hv⟩, h1, h2⟩
      refine ⟨h, _, _, ⟨?_, ?_⟩, placed_put₂ hne hv h2⟩
      · show AssignedMove tr T (unplaced _) (unplaced _) (unplaced _) (unplaced _)
        rw [hc, hd, unplaced_tag (P.has h (by rw [hv, put_self])), unplaced_tag (P.has h (by rw [hv]; simp [put, Ne.symm hne]))]
        exact hC
      · intro he
        have h3 := (hC.equal he).1
        simp only [tag, h3]
        cases hbv : b.val with
        | none => rfl
        | some v => rw [h1 he (by simp [hbv])]
    · rintro s' ⟨⟨h, h0, b', hC, hC', hv⟩, h1⟩
      refine ⟨h, _, ⟨h0, hC, ?_⟩, placed_put hv h1⟩
      rw [tag_isSome (P.has h (by rw [hv, put_self])), hC', tag_isSome hq]
  destroy := by
    intro s x c e hs hx
    obtain ⟨a, ha, rfl, hc, hp⟩ := placed_some P hs hx
    refine (Ends.and (B.destroy e hs ha) (P.destroy e hs ha)).mono ?_ (fun _ h => h.1.elim) (fun h => h)
    rintro s' ⟨⟨h, hv⟩, h1⟩
    exact ⟨h, placed_drop hv h1⟩
  modify := by
    intro s x a w f e hs hx
    obtain ⟨b, hb, h0, hc, hp⟩ := placed_some P hs hx
    obtain ⟨ba, bv⟩ := b
    cases bv with
    | none => simp [tag] at h0
    | some v =>
      cases hq : at_ s x with
      | none => rw [hq] at hp; simp at hp
      | some q =>
        rw [hq] at h0
        simp only [tag, Option.bind_some, Option.map_some, Box.mk.injEq, Option.some.injEq] at h0
        obtain ⟨rfl, rfl⟩ := h0
        refine (Ends.and (B.modify f e hs hb) (P.modify f e hs hb)).mono ?_ (fun _ h => h.1.elim) (fun h => h)
        rintro s' ⟨⟨h, hv⟩, h1⟩
        refine ⟨h, ?_⟩
        rw [placed_put hv (fun z _ => h1 z), h1 x, hq]
        rfl

end

section
variable {L A R V X : Type} [DecidableEq L] [DecidableEq R] {tr : ATraits A R} {T : TSpec V X}
variable {s : St L A R (Obj V)}

theorem addr_has (h : IOk tr s) {l : L} {b : Box A V} (hb : Indirect.abs s l = some b) :
    (addr s l).isSome = b.val.isSome := by
  obtain ⟨a, v⟩ := b
  cases v with
  | none => rw [Indirect.addr_of (Indirect.disengaged h.1 hb)]; rfl
  | some v =>
    obtain ⟨q, r, hk, _⟩ := Indirect.engaged hb
    rw [Indirect.addr_of hk]; rfl

theorem frame (o : Op L A V X) (e : Env) {Q E : St L A R (Obj V) → Prop} {D : Prop}
    (h : Ends (Holder.ofCall (Indirect.call tr (plain T) o e) s) Q E D) :
    Ends (Holder.ofCall (Indirect.call tr (plain T) o e) s) (fun s' => ∀ z, z ∉ rebinds o → addr s' z = addr s z)
      (fun s' => ∀ z, z ∉ rebinds o → addr s' z = addr s z) True := by
  have F : ∀ z, z ∉ rebinds o → (Indirect.call tr (plain T) o e s).All (HsAt z (s.hs z)) := fun z hz =>
    Indirect.hsAt_call tr T o e s hz rfl
  unfold Holder.ofCall at h ⊢
  cases hc : Indirect.call tr (plain T) o e s with
  | ok u s' => exact fun z hz => by have := F z hz; rw [hc] at this; simp only [addr, show s'.hs z = s.hs z from this]
  | threw x s' => exact fun z hz => by have := F z hz; rw [hc] at this; simp only [addr, show s'.hs z = s.hs z from this]
  | terminated => trivial
  | ub u => rw [hc] at h; exact h
  | diverged => rw [hc] at h; exact h

theorem indirect_located (S : tr.Sound) (Rf : tr.Reflexive) (T : TSpec V X) :
    Located tr Indirect.abs addr (IOk tr) (Holder.indirect (L := L) tr T) where
  has h hb := addr_has h hb
  make := by
    intro s x i e hs hx
    refine (frame (.make x i.1 (Holder.ctorOf i.2)) e ((indirect_behaves S Rf T).make i e hs hx)).mono ?_ ?_ (fun h => h) <;>
      exact fun s' h z hz => h z (by simp [rebinds, hz])
  copy := by
    intro s x y b e hs hx hy
    refine (frame (.copy x y) e ((indirect_behaves S Rf T).copy e hs hx hy)).mono ?_ ?_ (fun h => h) <;>
      exact fun s' h z hz => h z (by simp [rebinds, hz])
  move := by
    intro s x y b e hs hx hy
    refine ((Ends.and (Q := fun s' => addr s' x = addr s y) (E := fun _ => True) (D := True) ?_
      (frame (.move x y) e ((indirect_behaves S Rf T).move e hs hx hy)))).mono ?_ (fun _ _ => trivial) (fun h => h)
    · obtain ⟨p, hk⟩ := Indirect.alive hy
      have : Indirect.call tr (plain T) (.move x y) e s = Indirect.call tr (plain T) (.moveA x b.alloc y) e s :=
        Indirect.move_moveA (s := s.enter e) hk
      have h2 : Indirect.call tr (plain T) (.moveA x b.alloc y) e s = _ :=
        Indirect.moveA_steal (s := s.enter e) (Indirect.abs_dead hx) hk (.inr (Rf.eq_refl _))
      show Ends (Holder.ofCall (Indirect.call tr (plain T) (.move x y) e) s) _ _ _
      unfold Holder.ofCall
      rw [this, h2]
      show addr _ x = _
      simp [addr, hk]
    · exact fun s' h => ⟨h.1, fun z h1 h2 => h.2 z (by simp [rebinds, h1, h2])⟩
  assignCopy := by
    intro s x y a b e hs hne hx hy
    refine (frame (.assignCopy x y) e ((indirect_behaves S Rf T).assignCopy e hs hne hx hy)).mono ?_ ?_ (fun h => h) <;>
      exact fun s' h z hz => h z (by simp [rebinds, hz])
  assignMove := by
    intro s x y a b e hs hne hx hy
    have F := frame (.assignMove x y) e ((indirect_behaves S Rf T).assignMove e hs hne hx hy)
    have key : Ends (Holder.ofCall (Indirect.call tr (plain T) (.assignMove x y) e) s)
        (fun s' => tr.eq a.alloc b.alloc = true → b.val.isSome → addr s' x = addr s y)
        (fun s' => ∀ z, addr s' z = addr s z) True := by
      obtain ⟨t, ht, hta, -⟩ := abs_some hx
      obtain ⟨ba, bv⟩ := b
      cases bv with
      | none =>
        have hk := Indirect.disengaged hs.1 hy
        have : Indirect.call tr (plain T) (.assignMove x y) e s = _ :=
          Indirect.assignMove_null (s := s.enter e) hs.1 hne ht hk rfl
        unfold Holder.ofCall
        rw [this]
        exact fun _ h => by simp at h
      | some v =>
        obtain ⟨q, r, hk, hq⟩ := Indirect.engaged hy
        cases hab : tr.eq a.alloc ba with
        | true =>
          have : Indirect.call tr (plain T) (.assignMove x y) e s = _ :=
            Indirect.assignMove_steal (s := s.enter e) S hs.1 hne ht hk rfl (by rw [← hta]; exact hab)
          unfold Holder.ofCall
          rw [this]
          exact fun _ _ => by simp [addr, hk]
        | false =>
          have hfr : t.p ≠ some (e.pick 0) ∨ available s e = false := by
            cases hav : available s e with
            | false => exact .inr rfl
            | true => exact .inl (Inv.fresh hs.1 (by simp [available] at hav; exact hav.2) ht)
          have E := Indirect.assignMove_replace (tr := tr) (T := T) (s := s.enter e) hs.1 hne ht hk rfl hq
            (by rw [← hta]; exact hab)
          have M := Indirect.replaced_effect (tr := tr) (s := s) (e := e) (x := x) (t := t) (a := if tr.pocma then ba else t.alloc)
            (how := .moveOf q) (s₁ := Indirect.leave (s.enter e) q r (T.move v (e.choice 0)).2) (r := (T.move v (e.choice 0)).1)
            rfl rfl rfl hfr
          have W := (indirect_behaves S Rf T).assignMove e hs hne hx hy
          simp only [Holder.indirect] at W
          unfold Holder.ofCall at W ⊢
          cases hc : Indirect.call tr (plain T) (.assignMove x y) e s with
          | ok u s' => exact fun h => by simp at h
          | threw ex s' =>
            have C := M.2.1 ex s' (Indirect.noexceptIf_threw_inv (E.symm.trans hc))
            have hh : s'.hs = s.hs := by
              cases C with
              | noStorage _ _ h1 h2 _ => exact h1
              | ctorThrew p _ _ _ h1 h2 _ => exact h1
            exact fun z => by simp only [addr, hh]
          | terminated => trivial
          | ub u => rw [hc] at W; exact W
          | diverged => rw [hc] at W; exact W
    refine (Ends.and key F).mono ?_ ?_ (fun h => h)
    · exact fun s' h => ⟨h.1, fun z h1 h2 => h.2 z (by simp [rebinds, h1, h2])⟩
    · exact fun s' h z _ => h.1 z
  destroy := by
    intro s x b e hs hx
    refine (frame (.destroy x) e ((indirect_behaves S Rf T).destroy e hs hx)).mono ?_ (fun _ _ => trivial) (fun h => h)
    exact fun s' h z hz => h z (by simp [rebinds, hz])
  modify := by
    intro s x a v f e hs hx
    refine (frame (.modify x f) e ((indirect_behaves S Rf T).modify f e hs hx)).mono ?_ (fun _ _ => trivial) (fun h => h)
    exact fun s' h z => h z (by simp [rebinds])

end

section
variable {L A R Ty V X : Type} [DecidableEq L] [DecidableEq R] [DecidableEq Ty] {tr : ATraits A R}

theorem ofCall_view' {P : PSpec Ty V X} (o : POp L A Ty V X) {e : Env} {s : St L A R (PBody Ty V)}
    {Q E : St L A R (Obj (Ty × V)) → Prop} {D : Prop} (hs : POk tr s) (hl : PLegal tr (Polymorphic.abs s) o)
    (h : Ends (Holder.ofCall (Indirect.call tr (plain P.owned) (Polymorphic.toOp o) e) (Polymorphic.view s)) Q E D) :
    Ends (Holder.ofCall (Polymorphic.call tr (plainP P) o e) s) (fun s' => Q (Polymorphic.view s'))
      (fun s' => E (Polymorphic.view s')) D := by
  have := Polymorphic.call_sim (P := P) hs.1 hs.2.1 o e hl
  unfold Holder.ofCall at h ⊢
  cases hc : Polymorphic.call tr (plainP P) o e s with
  | ok out s' =>
    rw [hc] at this
    rw [this.2] at h
    exact h
  | threw x s' =>
    rw [hc] at this
    rw [this.2] at h
    exact h
  | terminated =>
    rw [hc] at this
    rw [show Indirect.call tr (plain P.owned) (Polymorphic.toOp o) e (Polymorphic.view s) = .terminated from this] at h
    exact h
  | ub u =>
    rw [hc] at this
    obtain ⟨_, this⟩ := this
    rw [this] at h
    exact h
  | diverged =>
    rw [hc] at this
    rw [show Indirect.call tr (plain P.owned) (Polymorphic.toOp o) e (Polymorphic.view s) = .diverged from this] at h
    exact h

theorem polymorphic_located (S : tr.Sound) (Rf : tr.Reflexive) (P : PSpec Ty V X) :
    Located tr Polymorphic.abs addr (POk tr) (Holder.polymorphic (L := L) tr P) where
  has h hb := addr_has h.2 (by rw [Polymorphic.abs_view]; exact hb)
  make := by
    intro s x i e hs hx
    refine ofCall_view' (.make x i.1 (Holder.pctorOf i.2.1 i.2.2))
      (Q := fun s' => ∀ z, z ≠ x → addr s' z = addr (Polymorphic.view s) z)
      (E := fun s' => ∀ z, z ≠ x → addr s' z = addr (Polymorphic.view s) z) hs ⟨hx, ?_⟩ ?_
    · rcases i.2 with ⟨ty, xs⟩
      cases ty <;> cases xs <;> trivial
    · have h1 := Composite.ofCall_ends (T := P.owned) (e := e) (s := Polymorphic.view s) (Q := fun _ => True)
        (E := fun _ => True) (D := True)
        (.make x i.1 (Polymorphic.toCtor (Holder.pctorOf i.2.1 i.2.2))) S hs.2 ⟨by rw [Polymorphic.abs_view]; exact hx, ?_⟩
        fun m n => ?_
      · refine (frame (.make x i.1 (Polymorphic.toCtor (Holder.pctorOf i.2.1 i.2.2))) e h1).mono ?_ ?_ (fun h => h) <;>
          exact fun s' h z hz => h z (by simp [rebinds, hz])
      · rcases i.2 with ⟨ty, xs⟩
        cases ty <;> cases xs <;> trivial
      · simp only [Spec.step]
        cases (buildCtor P.owned m n (Indirect.abs (Polymorphic.view s))
            (Polymorphic.toCtor (L := L) (Holder.pctorOf i.2.1 i.2.2))).1 <;> trivial
  copy := by
    intro s x y b e hs hx hy
    exact ofCall_view' (.copy x y) hs ⟨hx, b, hy⟩ ((indirect_located S Rf P.owned).copy (s := Polymorphic.view s) (b := b) e hs.2
      (by rw [Polymorphic.abs_view]; exact hx) (by rw [Polymorphic.abs_view]; exact hy))
  move := by
    intro s x y b e hs hx hy
    exact ofCall_view' (.move x y) hs ⟨hx, b, hy⟩ ((indirect_located S Rf P.owned).move (s := Polymorphic.view s) (b := b) e hs.2
      (by rw [Polymorphic.abs_view]; exact hx) (by rw [Polymorphic.abs_view]; exact hy))
  assignCopy := by
    intro s x y a b e hs hne hx hy
    exact ofCall_view' (.assignCopy x y) hs ⟨⟨a, hx⟩, b, hy⟩ ((indirect_located S Rf P.owned).assignCopy (s := Polymorphic.view s)
      (a := a) (b := b) e hs.2 hne (by rw [Polymorphic.abs_view]; exact hx) (by rw [Polymorphic.abs_view]; exact hy))
  assignMove := by
    intro s x y a b e hs hne hx hy
    exact ofCall_view' (.assignMove x y) hs ⟨⟨a, hx⟩, b, hy⟩ ((indirect_located S Rf P.owned).assignMove (s := Polymorphic.view s)
      (a := a) (b := b) e hs.2 hne (by rw [Polymorphic.abs_view]; exact hx) (by rw [Polymorphic.abs_view]; exact hy))
  destroy := by
    intro s x b e hs hx
    exact ofCall_view' (.destroy x) hs ⟨b, hx⟩ ((indirect_located S Rf P.owned).destroy (s := Polymorphic.view s)
      (b := b) e hs.2 (by rw [Polymorphic.abs_view]; exact hx))
  modify := by
    intro s x a v f e hs hx
    exact ofCall_view' (.modify x f) hs ⟨v, by simp [valueOf, hx]⟩ ((indirect_located S Rf P.owned).modify (s := Polymorphic.view s)
      (a := a) (v := v) (fun w => (w.1, f w.1 w.2)) e hs.2 (by rw [Polymorphic.abs_view]; exact hx))

end

/-! ### Vectors -/

section
variable {C S A W I J F : Type} [DecidableEq C]
variable {abs : S → Boxes (Cell C) A W} {at_ : S → Cell C → Option Addr} {Ok : S → Prop}
variable {H : Holder (Cell C) S W I F} {mk : C → J → Env → M S Unit} {s : VecS C S}

theorem call_placed (o : VecOp C I J F) (N : Buf) (es : Nat → Nat → Env) :
    call H.placed mk o N es s = call H mk o N es s := by
  cases o <;> rfl

/-- The invariant only depends on which elements exist. -/
theorem Inv.placed (K : Inv abs Ok s) : Inv (placed abs at_) Ok s where
  ok := K.ok
  rep :=
    { list := fun x v hv => by
        obtain ⟨bs, h1, h2, h3, h4⟩ := K.rep.list x v hv
        have hg : ∀ i, Spec.placed abs at_ s.1 (.elem v.buf i) =
            (bs.mapIdx fun i b => tag (at_ s.1 (.elem v.buf i)) b)[i]? := fun i => by
          rw [placed_eq, h4 i, List.getElem?_mapIdx]
        refine ⟨_, ?_, by rw [List.length_mapIdx, h2], h3, hg⟩
        simp only [vstate, hv, Option.map_some]
        rw [range_get (by rw [List.length_mapIdx, h2]) hg]
      gone := fun x hx => by simp [vstate, hx]
      inj := K.rep.inj
      used := fun b hb i => by rw [placed_none]; exact K.rep.used b hb i
      vars := fun y => rfl }

end
end Verif.Vector
