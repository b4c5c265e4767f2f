import Verif.Proofs.NodeMoveAssign
import Verif.Spec.World

set_option autoImplicit false
set_option linter.unusedSectionVars false
set_option linter.unusedSimpArgs false

/-! Places inside trees: a change at a place is a change of the tree it is part of. -/

namespace Verif.Node
open Verif

section
variable {N A R V X : Type} [DecidableEq N] [DecidableEq R]
variable {res : A → R} {K : Nat}

/-- The location reached from `l`, which holds the tree, by member accesses. -/
def place (l : Loc N) : Tree A V → List Nat → Loc N
  | _, [] => l
  | .node p _ _ ks, k :: r => place (.field p k) (ks k) r
  | .absent, _ :: _ => l
  | .hollow _, _ :: _ => l

theorem walk_eq {s : NSt N A R V} : ∀ (r : List Nat) {l : Loc N} {t : Tree A V},
    Holds res K s (s.hs l) t → t.Has K r → walk l r s = .ok (place l t r) s
  | [], l, t, _, _ => by cases t <;> rfl
  | k :: r, l, t, hh, hr => by
    cases t with
    | absent => exact hr.elim
    | hollow a => exact hr.elim
    | node p a v ks =>
      obtain ⟨h1, h2, h3⟩ := hh
      obtain ⟨hk, hr⟩ := hr
      show (Indirect.deref l >>= fun p => readObj p >>= fun _ => walk (.field p k) r) s = _
      rw [M.bind_ok (deref_eq h1), M.bind_ok (readObj_some h2)]
      exact walk_eq r (h3 k hk) hr

theorem place_cases : ∀ (r : List Nat) (l : Loc N) (t : Tree A V), t.Has K r →
    place l t r = l ∨ ∃ q k, place l t r = .field q k ∧ t.Mem K q ∧ k < K
  | [], l, t, _ => by cases t <;> exact Or.inl rfl
  | k :: r, l, t, hr => by
    cases t with
    | absent => exact hr.elim
    | hollow a => exact hr.elim
    | node p a v ks =>
      obtain ⟨hk, hr⟩ := hr
      right
      rcases place_cases r (.field p k) (ks k) hr with e | ⟨q, j, e, hm, hj⟩
      · exact ⟨p, k, e, Or.inl rfl, hk⟩
      · exact ⟨q, j, e, Or.inr ⟨k, hk, hm⟩, hj⟩

/-- A place inside one tree of a forest is not one of the other places of the forest. -/
theorem place_ne {D : Loc N → Prop} {ts : Loc N → Tree A V} {s : NSt N A R V} {l x : Loc N} {r : List Nat}
    (hf : Forest res K D ts s) (hl : D l) (hr : (ts l).Has K r) (hx : D x) (hne : x ≠ l) :
    x ≠ place l (ts l) r := by
  intro e
  rcases place_cases r l (ts l) hr with h | ⟨q, k, h, hm, _⟩
  · exact hne (e.trans h)
  · exact hf.out q k l ((e.trans h) ▸ hx) hl hm

theorem opened_upd (ts : Loc N → Tree A V) (p : Addr) (ks : Nat → Tree A V) (k : Nat) (t : Tree A V) :
    upd (opened ts p ks) (.field p k) t = opened ts p (upd ks k t) := by
  funext l
  cases l with
  | var x => simp [opened, upd]
  | field q j =>
    simp only [opened, upd, Loc.field.injEq]
    by_cases hq : q = p
    · by_cases hj : j = k <;> simp [hq, hj]
    · simp [hq]

/-- Members of an opened node changed. -/
theorem Chng.closeTo {D : Loc N → Prop} {ts : Loc N → Tree A V} {s s' : NSt N A R V} {l : Loc N}
    {p : Addr} {a : A} {v : V} {ks ks' : Nat → Tree A V} (hf : Forest res K D ts s) (hl : D l)
    (ht : ts l = .node p a v ks)
    (h : Chng res K (Opened D l p K) (opened ts p ks) (opened ts p ks') s s') :
    Chng res K D ts (upd ts l (.node p a v ks')) s s' := by
  refine (Chng.close hf hl ht h).eqOn (fun _ _ => rfl) ?_
  intro x hx
  by_cases e : x = l
  · subst e
    rw [upd_same, upd_same]
    congr 1
    funext j; rw [opened_member]
  · rw [upd_other _ _ e, upd_other _ _ e,
      opened_other ts p ks' (fun k e' => hf.member_not hl ht k (e' ▸ hx))]

theorem put_node (p : Addr) (a : A) (v : V) (ks : Nat → Tree A V) (k : Nat) (r : List Nat) (u : Tree A V) :
    (Tree.node p a v ks).put (k :: r) u = .node p a v (upd ks k ((ks k).put r u)) := rfl

/-- Focus on one place: the other places of the forest stay in view. -/
theorem focus : ∀ (r : List Nat) {D : Loc N → Prop} {ts : Loc N → Tree A V} {s : NSt N A R V} {l : Loc N},
    Forest res K D ts s → D l → (ts l).Has K r →
    Forest res K (fun x => (D x ∧ x ≠ l) ∨ x = place l (ts l) r)
        (upd ts (place l (ts l) r) ((ts l).at' r)) s ∧
      ∀ us s', Chng res K (fun x => (D x ∧ x ≠ l) ∨ x = place l (ts l) r)
          (upd ts (place l (ts l) r) ((ts l).at' r)) us s s' →
        Chng res K D ts (upd us l ((ts l).put r (us (place l (ts l) r)))) s s'
  | [], D, ts, s, l, hf, hl, _ => by
    have e1 : place l (ts l) [] = l := by cases ts l <;> rfl
    have e2 : (ts l).at' [] = ts l := by cases ts l <;> rfl
    have e3 : ∀ u, (ts l).put [] u = u := fun u => by cases ts l <;> rfl
    have hD : ∀ x, D x ↔ ((D x ∧ x ≠ l) ∨ x = l) := fun x =>
      ⟨fun h => by by_cases e : x = l; exact Or.inr e; exact Or.inl ⟨h, e⟩,
        fun h => h.elim (fun h => h.1) (fun e => e ▸ hl)⟩
    rw [e1, e2, upd_id _ _ _ rfl]
    refine ⟨hf.sub (fun x => (hD x).2), fun us s' c => ?_⟩
    rw [e3, upd_id _ _ _ rfl]
    exact c.dset hD
  | k :: r, D, ts, s, l, hf, hl, hr => by
    cases ht : ts l with
    | absent => rw [ht] at hr; exact hr.elim
    | hollow a => rw [ht] at hr; exact hr.elim
    | node p a v ks =>
      rw [ht] at hr
      obtain ⟨hk, hr⟩ := hr
      have hnot := hf.member_not hl ht
      have hfo := hf.open hl ht
      have hl1 : Opened D l p K (.field p k) := Or.inr ⟨k, hk, rfl⟩
      have htk : opened ts p ks (.field p k) = ks k := opened_member ts p ks k
      have ih := focus r hfo hl1 (by rw [htk]; exact hr)
      rw [htk] at ih
      show Forest res K (fun x => (D x ∧ x ≠ l) ∨ x = place (.field p k) (ks k) r)
          (upd ts (place (.field p k) (ks k) r) ((ks k).at' r)) s ∧ ∀ us s',
          Chng res K (fun x => (D x ∧ x ≠ l) ∨ x = place (.field p k) (ks k) r)
            (upd ts (place (.field p k) (ks k) r) ((ks k).at' r)) us s s' →
          Chng res K D ts (upd us l ((Tree.node p a v ks).put (k :: r)
            (us (place (.field p k) (ks k) r)))) s s'
      have hmne : ∀ j, j ≠ k → Loc.field p j ≠ place (N := N) (.field p k) (ks k) r := by
        intro j hj e
        rcases place_cases (N := N) r (.field p k) (ks k) hr with h | ⟨q, i, h, hm, _⟩
        · rw [h] at e; cases e; exact hj rfl
        · rw [h] at e; cases e
          have := hf.sep l hl
          rw [ht] at this
          exact this.1 k hk hm
      generalize hmm : place (N := N) (.field p k) (ks k) r = m at ih hmne ⊢
      generalize htt : (ks k).at' r = τ at ih ⊢
      obtain ⟨ih1, ih2⟩ := ih
      have hsub : ∀ x : Loc N, ((D x ∧ x ≠ l) ∨ x = m) → ((Opened D l p K x ∧ x ≠ .field p k) ∨ x = m) := by
        rintro x (⟨h1, h2⟩ | h)
        · exact Or.inl ⟨Or.inl ⟨h1, h2⟩, fun e => hnot k (e ▸ h1)⟩
        · exact Or.inr h
      have heq : ∀ x, ((D x ∧ x ≠ l) ∨ x = m) → upd (opened ts p ks) m τ x = upd ts m τ x := by
        intro x hx
        by_cases e : x = m
        · subst e; rw [upd_same, upd_same]
        · rw [upd_other _ _ e, upd_other _ _ e]
          rcases hx with ⟨h1, _⟩ | h
          · exact opened_other ts p ks (fun j e' => hnot j (e' ▸ h1))
          · exact absurd h e
      refine ⟨(ih1.sub hsub).eqOn (fun x hx => (heq x hx).symm), fun us s' c => ?_⟩
      have hclass : ∀ x, Decidable ((D x ∧ x ≠ l) ∨ x = m) := fun x => Classical.propDecidable _
      let us1 : Loc N → Tree A V := fun x => if (D x ∧ x ≠ l) ∨ x = m then us x else opened ts p ks x
      have h1 : ∀ x, ((D x ∧ x ≠ l) ∨ x = m) → us1 x = us x := fun x hx => if_pos hx
      have h2 : ∀ x, ¬ ((D x ∧ x ≠ l) ∨ x = m) → us1 x = opened ts p ks x := fun x hx => if_neg hx
      have c1 := (c.eqOn heq h1).extend ih1 hsub (fun x _ hn => by
        rw [h2 x hn, upd_other _ _ (fun e => hn (Or.inr e))])
      have c2 := Chng.close hf hl ht (ih2 us1 s' c1)
      refine c2.eqOn (fun _ _ => rfl) ?_
      intro x hx
      by_cases e : x = l
      · subst e
        rw [upd_same, upd_same, put_node]
        congr 1
        funext j
        by_cases ej : j = k
        · subst ej; rw [upd_same, upd_same, h1 m (Or.inr rfl)]
        · rw [upd_other _ _ ej, upd_other _ _ (fun e' => by cases e'; exact ej rfl), h2, opened_member]
          rintro (⟨hd, _⟩ | hm)
          · exact hnot j hd
          · exact hmne j ej hm
      · rw [upd_other _ _ e, upd_other _ _ e, upd_other _ _ (show x ≠ .field p k from fun e' => hnot k (e' ▸ hx)),
          h1 x (Or.inl ⟨hx, e⟩)]

/-- One place alone. -/
theorem focusOne {r : List Nat} {D : Loc N → Prop} {ts : Loc N → Tree A V} {s : NSt N A R V} {l : Loc N}
    (hf : Forest res K D ts s) (hl : D l) (hr : (ts l).Has K r) :
    Forest res K (· = place l (ts l) r) (fun _ => (ts l).at' r) s ∧
      ∀ us s', Chng res K (· = place l (ts l) r) (fun _ => (ts l).at' r) us s s' →
        Chng res K D ts (upd ts l ((ts l).put r (us (place l (ts l) r)))) s s' := by
  obtain ⟨h1, h2⟩ := focus r hf hl hr
  have hxm := fun x hx hne => place_ne (x := x) hf hl hr hx hne
  generalize hm : place l (ts l) r = m at h1 h2 hxm ⊢
  generalize (ts l).at' r = τ at h1 h2 ⊢
  have heq : ∀ x, x = m → upd ts m τ x = τ := fun x e => by subst e; exact upd_same _ _ _
  refine ⟨(h1.sub (fun x e => Or.inr e)).eqOn (fun x e => (heq x e).symm), fun us s' c => ?_⟩
  have c1 := (c.eqOn (us' := upd (upd ts m τ) m (us m)) heq (fun x e => by subst e; exact upd_same _ _ _)).extend h1
    (fun x e => Or.inr e) (fun x _ hn => upd_other _ _ hn)
  have c2 := h2 _ s' c1
  rw [upd_upd, upd_same] at c2
  refine c2.eqOn (fun _ _ => rfl) (fun x hx => ?_)
  by_cases e : x = l
  · subst e; rw [upd_same, upd_same]
  · rw [upd_other _ _ e, upd_other _ _ e, upd_other _ _ (hxm x hx e)]

/-- Two places in different trees of a forest. -/
theorem focusTwo {r₁ r₂ : List Nat} {D : Loc N → Prop} {ts : Loc N → Tree A V} {s : NSt N A R V}
    {l₁ l₂ : Loc N} (hf : Forest res K D ts s) (hd₁ : D l₁) (hd₂ : D l₂) (hne : l₁ ≠ l₂)
    (hr₁ : (ts l₁).Has K r₁) (hr₂ : (ts l₂).Has K r₂) :
    place l₁ (ts l₁) r₁ ≠ place l₂ (ts l₂) r₂ ∧
    Forest res K (fun x => x = place l₁ (ts l₁) r₁ ∨ x = place l₂ (ts l₂) r₂)
        (upd (fun _ => (ts l₁).at' r₁) (place l₂ (ts l₂) r₂) ((ts l₂).at' r₂)) s ∧
      ∀ us s', Chng res K (fun x => x = place l₁ (ts l₁) r₁ ∨ x = place l₂ (ts l₂) r₂)
          (upd (fun _ => (ts l₁).at' r₁) (place l₂ (ts l₂) r₂) ((ts l₂).at' r₂)) us s s' →
        Chng res K D ts (upd (upd ts l₁ ((ts l₁).put r₁ (us (place l₁ (ts l₁) r₁)))) l₂
          ((ts l₂).put r₂ (us (place l₂ (ts l₂) r₂)))) s s' := by
  obtain ⟨f1, b1⟩ := focus r₁ hf hd₁ hr₁
  have hx1 := fun x hx h => place_ne (x := x) hf hd₁ hr₁ hx h
  have hx2 := fun x hx h => place_ne (x := x) hf hd₂ hr₂ hx h
  have h12 : place l₁ (ts l₁) r₁ ≠ place l₂ (ts l₂) r₂ := by
    intro e
    rcases place_cases r₁ l₁ (ts l₁) hr₁ with h | ⟨q, k, h, hm, _⟩
    · exact hx2 l₁ hd₁ hne (h.symm.trans e)
    · rcases place_cases r₂ l₂ (ts l₂) hr₂ with h' | ⟨q', k', h', hm', _⟩
      · exact hx1 l₂ hd₂ (Ne.symm hne) (h'.symm.trans e.symm)
      · rw [h, h'] at e; cases e
        exact hf.disj l₁ l₂ hd₁ hd₂ hne q hm hm'
  have hm1l2 := hx1 l₂ hd₂ (Ne.symm hne)
  generalize hm₁ : place l₁ (ts l₁) r₁ = m₁ at f1 b1 hx1 h12 hm1l2 ⊢
  generalize (ts l₁).at' r₁ = τ₁ at f1 b1 ⊢
  have ht2 : upd ts m₁ τ₁ l₂ = ts l₂ := upd_other _ _ hm1l2
  obtain ⟨f2, b2⟩ := focus r₂ f1 (l := l₂) (Or.inl ⟨hd₂, Ne.symm hne⟩) (by rw [ht2]; exact hr₂)
  rw [ht2] at f2 b2
  generalize hm₂ : place l₂ (ts l₂) r₂ = m₂ at f2 b2 hx2 h12 ⊢
  generalize (ts l₂).at' r₂ = τ₂ at f2 b2 ⊢
  have hsub : ∀ x, (x = m₁ ∨ x = m₂) → ((((D x ∧ x ≠ l₁) ∨ x = m₁) ∧ x ≠ l₂) ∨ x = m₂) := by
    rintro x (h | h)
    · exact Or.inl ⟨Or.inr h, fun e => hm1l2 (e.symm.trans h)⟩
    · exact Or.inr h
  have heq : ∀ x, (x = m₁ ∨ x = m₂) → upd (upd ts m₁ τ₁) m₂ τ₂ x = upd (fun _ => τ₁) m₂ τ₂ x := by
    intro x hx
    by_cases e : x = m₂
    · subst e; rw [upd_same, upd_same]
    · rw [upd_other _ _ e, upd_other _ _ e]
      rcases hx with h | h
      · subst h; exact upd_same _ _ _
      · exact absurd h e
  refine ⟨h12, (f2.sub hsub).eqOn (fun x hx => (heq x hx).symm), fun us s' c => ?_⟩
  have c1 := (c.eqOn (us' := upd (upd (upd (upd ts m₁ τ₁) m₂ τ₂) m₁ (us m₁)) m₂ (us m₂)) heq (fun x hx => by
    rcases hx with h | h
    · subst h; rw [upd_other _ _ h12, upd_same]
    · subst h; rw [upd_same])).extend f2 hsub (fun x _ hn => by
      rw [upd_other _ _ (fun e => hn (Or.inr e)), upd_other _ _ (fun e => hn (Or.inl e))])
  have c2 := b2 _ s' c1
  rw [upd_same] at c2
  have c3 := b1 _ s' c2
  rw [upd_other _ _ (Ne.symm hm1l2), upd_other _ _ h12, upd_same] at c3
  refine c3.eqOn (fun _ _ => rfl) (fun x hx => ?_)
  by_cases e2 : x = l₂
  · subst e2; rw [upd_same, upd_other _ _ (Ne.symm hne), upd_same]
  · by_cases e1 : x = l₁
    · subst e1; rw [upd_other _ _ hne, upd_same, upd_same]
    · rw [upd_other _ _ e2, upd_other _ _ e1, upd_other _ _ e1, upd_other _ _ e2,
        upd_other _ _ (hx2 x hx e2), upd_other _ _ (hx1 x hx e1), upd_other _ _ (hx2 x hx e2),
        upd_other _ _ (hx1 x hx e1)]

/-- Two places in the same tree of a forest, none inside the other. -/
theorem focusSame : ∀ (r₁ r₂ : List Nat) {D : Loc N → Prop} {ts : Loc N → Tree A V} {s : NSt N A R V}
    {l : Loc N}, ¬ r₁ <+: r₂ → ¬ r₂ <+: r₁ → Forest res K D ts s → D l → (ts l).Has K r₁ → (ts l).Has K r₂ →
    place l (ts l) r₁ ≠ place l (ts l) r₂ ∧
    Forest res K (fun x => x = place l (ts l) r₁ ∨ x = place l (ts l) r₂)
        (upd (fun _ => (ts l).at' r₁) (place l (ts l) r₂) ((ts l).at' r₂)) s ∧
      ∀ us s', Chng res K (fun x => x = place l (ts l) r₁ ∨ x = place l (ts l) r₂)
          (upd (fun _ => (ts l).at' r₁) (place l (ts l) r₂) ((ts l).at' r₂)) us s s' →
        Chng res K D ts (upd ts l (((ts l).put r₁ (us (place l (ts l) r₁))).put r₂
          (us (place l (ts l) r₂)))) s s'
  | [], r₂, _, _, _, _, h, _, _, _, _, _ => absurd (List.nil_prefix) h
  | _ :: _, [], _, _, _, _, _, h, _, _, _, _ => absurd (List.nil_prefix) h
  | k₁ :: r₁, k₂ :: r₂, D, ts, s, l, hp₁, hp₂, hf, hl, hr₁, hr₂ => by
    cases ht : ts l with
    | absent => rw [ht] at hr₁; exact hr₁.elim
    | hollow a => rw [ht] at hr₁; exact hr₁.elim
    | node p a v ks =>
      rw [ht] at hr₁ hr₂
      obtain ⟨hk₁, hr₁⟩ := hr₁
      obtain ⟨hk₂, hr₂⟩ := hr₂
      have hfo := hf.open hl ht
      have o₁ : Opened D l p K (.field p k₁) := Or.inr ⟨k₁, hk₁, rfl⟩
      have o₂ : Opened D l p K (.field p k₂) := Or.inr ⟨k₂, hk₂, rfl⟩
      have t₁ : opened ts p ks (.field p k₁) = ks k₁ := opened_member ts p ks k₁
      have t₂ : opened ts p ks (.field p k₂) = ks k₂ := opened_member ts p ks k₂
      by_cases hk : k₁ = k₂
      · subst hk
        rw [List.cons_prefix_cons] at hp₁ hp₂
        have ih := focusSame r₁ r₂ (fun h => hp₁ ⟨rfl, h⟩) (fun h => hp₂ ⟨rfl, h⟩) hfo o₁
          (by rw [t₁]; exact hr₁) (by rw [t₁]; exact hr₂)
        rw [t₁] at ih
        obtain ⟨i1, i2, i3⟩ := ih
        refine ⟨i1, i2, fun us s' c => ?_⟩
        have c1 := i3 us s' c
        rw [opened_upd] at c1
        have c2 := c1.closeTo hf hl ht
        refine c2.eqOn (fun _ _ => rfl) (fun x _ => ?_)
        rw [put_node, put_node, upd_upd, upd_same]
        rfl
      · have ih := focusTwo hfo o₁ o₂ (by intro e; cases e; exact hk rfl)
          (by rw [t₁]; exact hr₁) (by rw [t₂]; exact hr₂)
        rw [t₁, t₂] at ih
        obtain ⟨i1, i2, i3⟩ := ih
        refine ⟨i1, i2, fun us s' c => ?_⟩
        have c1 := i3 us s' c
        rw [opened_upd, opened_upd] at c1
        have c2 := c1.closeTo hf hl ht
        refine c2.eqOn (fun _ _ => rfl) (fun x _ => ?_)
        rw [put_node, put_node, upd_other _ _ (Ne.symm hk)]
        rfl

/-! Worlds -/

/-- The trees of the variables. -/
def roots (W : N → Tree A V) : Loc N → Tree A V
  | .var x => W x
  | .field _ _ => .absent

/-- The variables. -/
def IsVar (l : Loc N) : Prop := ∃ x, l = .var x

theorem World.forest {W : N → Tree A V} {s : NSt N A R V} (w : World res K W s) :
    Forest res K IsVar (roots W) s where
  holds := by rintro l ⟨x, rfl⟩; exact w.holds x
  sep := by rintro l ⟨x, rfl⟩; exact w.sep x
  disj := by
    rintro l l' ⟨x, rfl⟩ ⟨y, rfl⟩ hne
    exact w.disj x y (fun e => hne (by rw [e]))
  out := by rintro p k l ⟨x, h⟩; cases h
  base := by rintro p k ⟨x, h⟩; cases h

theorem World.change {W W' : N → Tree A V} {s s' : NSt N A R V} {ts : Loc N → Tree A V} (w : World res K W s)
    (c : Chng res K IsVar (roots W) ts s s') (he : ∀ x, W' x = ts (.var x)) : World res K W' s' where
  holds x := by rw [he]; exact c.post.holds _ ⟨x, rfl⟩
  sep x := by rw [he]; exact c.post.sep _ ⟨x, rfl⟩
  disj x y hne := by
    rw [he, he]
    exact c.post.disj _ _ ⟨x, rfl⟩ ⟨y, rfl⟩ (fun e => hne (by cases e; rfl))
  cover q hq := by
    apply Classical.byContradiction
    intro hno
    have hno' : ∀ l, IsVar l → ¬ (ts l).Mem K q := by
      rintro l ⟨x, rfl⟩ hm; exact hno ⟨x, by rw [he]; exact hm⟩
    by_cases hin : ∃ l, IsVar l ∧ (roots W l).Mem K q
    · obtain ⟨l, hl, hm⟩ := hin
      rcases c.freed l q hl hm with ⟨l', hl', hm'⟩ | h
      · exact hno' l' hl' hm'
      · exact hq h
    · have : s.heap q ≠ none := by
        rw [← c.heap q (fun l hl hm => hin ⟨l, hl, hm⟩) hno']; exact hq
      obtain ⟨x, hx⟩ := w.cover q this
      exact hin ⟨.var x, ⟨x, rfl⟩, hx⟩
  clean := c.clean

theorem World.congr {W : N → Tree A V} {s s' : NSt N A R V} (w : World res K W s) (h1 : s'.heap = s.heap)
    (h2 : s'.hs = s.hs) : World res K W s' :=
  w.change ((Chng.refl w.forest w.clean).congr rfl rfl h1 h2) (fun _ => rfl)

/-- The location of a path. -/
def loc (W : N → Tree A V) (P : Path N) : Loc N := place (.var P.root) (W P.root) P.steps

theorem resolve_eq {W : N → Tree A V} {s : NSt N A R V} (w : World res K W s) {P : Path N}
    (h : Exists K W P) : resolve P s = .ok (loc W P) s := walk_eq P.steps (w.holds P.root) h

theorem loc_lt {W : N → Tree A V} {P : Path N} (h : Exists K W P) : ∀ p k, loc W P = .field p k → k < K := by
  intro p k e
  rcases place_cases P.steps (.var P.root) (W P.root) h with h | ⟨q, j, h, _, hj⟩
  · rw [show loc W P = .var P.root from h] at e; cases e
  · rw [show loc W P = .field q j from h] at e; cases e; exact hj

theorem roots_upd (W : N → Tree A V) (y x : N) (t : Tree A V) :
    upd (roots W) (.var y) t (.var x) = upd W y t x := by
  simp only [upd, Loc.var.injEq]; rfl

/-- Change of one place of a world. -/
theorem World.one {W : N → Tree A V} {s : NSt N A R V} (w : World res K W s) {P : Path N}
    (h : Exists K W P) :
    Forest res K (· = loc W P) (fun _ => treeAt W P) s ∧
      ∀ us s', Chng res K (· = loc W P) (fun _ => treeAt W P) us s s' →
        World res K (putAt W P (us (loc W P))) s' := by
  obtain ⟨h1, h2⟩ := focusOne (l := .var P.root) (r := P.steps) w.forest ⟨_, rfl⟩ h
  refine ⟨h1, fun us s' c => w.change (h2 us s' c) (fun x => ?_)⟩
  rw [roots_upd]; rfl

/-- Change of two places of a world. -/
theorem World.two {W : N → Tree A V} {s : NSt N A R V} (w : World res K W s) {P Q : Path N}
    (h : Exists K W P) (h' : Exists K W Q) (ha : P.Apart Q) :
    loc W P ≠ loc W Q ∧
    Forest res K (fun l => l = loc W P ∨ l = loc W Q) (upd (fun _ => treeAt W P) (loc W Q) (treeAt W Q)) s ∧
      ∀ us s', Chng res K (fun l => l = loc W P ∨ l = loc W Q)
          (upd (fun _ => treeAt W P) (loc W Q) (treeAt W Q)) us s s' →
        World res K (putAt (putAt W P (us (loc W P))) Q (us (loc W Q))) s' := by
  by_cases he : P.root = Q.root
  · have ha := ha.resolve_left (fun hn => hn he)
    have hs := focusSame P.steps Q.steps (l := .var P.root) ha.1 ha.2 w.forest ⟨_, rfl⟩ h
      (by rw [he]; exact h')
    have e2 : loc W Q = place (.var P.root) (W P.root) Q.steps := by rw [he]; rfl
    have e3 : treeAt W Q = (W P.root).at' Q.steps := by rw [he]; rfl
    rw [e2, e3]
    obtain ⟨h1, h2, h3⟩ := hs
    refine ⟨h1, h2, fun us s' c => w.change (h3 us s' c) (fun x => ?_)⟩
    rw [roots_upd]
    unfold putAt
    rw [← he, upd_same, upd_upd]
    rfl
  · have ht := focusTwo (l₁ := .var P.root) (l₂ := .var Q.root) (r₁ := P.steps) (r₂ := Q.steps) w.forest
      ⟨_, rfl⟩ ⟨_, rfl⟩ (fun e => he (Loc.var.inj e)) h h'
    obtain ⟨h1, h2, h3⟩ := ht
    refine ⟨h1, h2, fun us s' c => w.change (h3 us s' c) (fun x => ?_)⟩
    unfold putAt
    rw [upd_other _ _ (Ne.symm he)]
    by_cases ex : x = Q.root
    · subst ex; rw [upd_same, upd_same]; rfl
    · rw [upd_other _ _ ex, upd_other _ _ (fun e => ex (Loc.var.inj e)), roots_upd]
      rfl

end
end Verif.Node
