import Verif.Proofs.NodeReach

set_option autoImplicit false
set_option linter.unusedSectionVars false
set_option linter.unusedSimpArgs false

/-! Facts about trees, and the exact effect of destroying one. -/

namespace Verif

namespace Tree
variable {A R V : Type} {K : Nat}

theorem Copy.like_of {C C' : V → V → Prop} {socc : A → A} (h : ∀ v w, C v w → C' v w) :
    ∀ {t t' : Tree A V} {a : A}, t.Copy C socc K a t' → t.Like C' K t' := by
  intro t
  induction t with
  | absent => intro t' a hc; exact hc
  | hollow b => intro t' a hc; exact ⟨a, hc⟩
  | node p b v ks ih =>
    intro t' a hc
    obtain ⟨p', w, ks', e, hv, hk⟩ := hc
    exact ⟨p', a, w, ks', e, h v w hv, fun k hlt => ih k (hk k hlt)⟩

/-- The root of a copy has the allocator the copy was made with. -/
theorem Copy.alloc {C : V → V → Prop} {socc : A → A} {t t' : Tree A V} {a b : A}
    (h : t.Copy C socc K a t') (hne : t ≠ .absent) : t'.allocOr b = a := by
  cases t with
  | absent => exact absurd rfl hne
  | hollow c => rw [show t' = .hollow a from h]; rfl
  | node p c v ks => obtain ⟨p', w, ks', e, _⟩ := h; rw [e]; rfl

section
variable [DecidableEq R] (res : A → R)

theorem count_downFrom {f : Nat → List (Ev R)} (c : List (Ev R) → Nat) (h0 : c [] = 0)
    (ha : ∀ x y, c (x ++ y) = c x + c y) {k : Nat} : ∀ {j : Nat}, k < j →
    (∀ i, i < j → i ≠ k → c (f i) = 0) → c (downFrom f j) = c (f k)
  | 0, h, _ => absurd h (Nat.not_lt_zero _)
  | j + 1, h, hz => by
    show c (f j ++ downFrom f j) = _
    rw [ha]
    by_cases e : k = j
    · subst e
      have : ∀ i, i ≤ k → c (downFrom f i) = 0 := by
        intro i
        induction i with
        | zero => intro _; exact h0
        | succ i ih =>
          intro hi
          show c (f i ++ downFrom f i) = 0
          rw [ha, hz i (by omega) (by omega), ih (by omega)]
      rw [this k (Nat.le_refl _)]; rfl
    · rw [hz j (by omega) (fun e' => e e'.symm),
        count_downFrom c h0 ha (k := k) (j := j) (by omega) (fun i hi hne => hz i (by omega) hne)]
      omega

theorem count_downFrom_zero {f : Nat → List (Ev R)} (c : List (Ev R) → Nat) (h0 : c [] = 0)
    (ha : ∀ x y, c (x ++ y) = c x + c y) : ∀ {j : Nat}, (∀ i, i < j → c (f i) = 0) → c (downFrom f j) = 0
  | 0, _ => h0
  | j + 1, hz => by
    show c (f j ++ downFrom f j) = 0
    rw [ha, hz j (Nat.lt_succ_self j), count_downFrom_zero c h0 ha (fun i hi => hz i (by omega))]

theorem deallocsAt_append (p : Addr) : ∀ x y : List (Ev R),
    Spec.deallocsAt p (x ++ y) = Spec.deallocsAt p x + Spec.deallocsAt p y
  | [], _ => by simp [Spec.deallocsAt]
  | ev :: x, y => by
    have := deallocsAt_append p x y
    cases ev <;> simp [Spec.deallocsAt, this]
    omega

theorem destroysAt_append (p : Addr) : ∀ x y : List (Ev R),
    Spec.destroysAt p (x ++ y) = Spec.destroysAt p x + Spec.destroysAt p y
  | [], _ => by simp [Spec.destroysAt]
  | ev :: x, y => by
    have := destroysAt_append p x y
    cases ev <;> simp [Spec.destroysAt, this]
    omega

theorem allocsAt_append (p : Addr) : ∀ x y : List (Ev R),
    Spec.allocsAt p (x ++ y) = Spec.allocsAt p x + Spec.allocsAt p y
  | [], _ => by simp [Spec.allocsAt]
  | ev :: x, y => by
    have := allocsAt_append p x y
    cases ev <;> simp [Spec.allocsAt, this]
    omega

theorem constructsAt_append (p : Addr) : ∀ x y : List (Ev R),
    Spec.constructsAt p (x ++ y) = Spec.constructsAt p x + Spec.constructsAt p y
  | [], _ => by simp [Spec.constructsAt]
  | ev :: x, y => by
    have := constructsAt_append p x y
    cases ev <;> simp [Spec.constructsAt, this]
    omega

/-- Blocks that are not in the tree are not touched by its teardown. -/
theorem teardown_other {q : Addr} : ∀ {t : Tree A V}, ¬ t.Mem K q →
    Spec.deallocsAt q (t.teardown res K) = 0 ∧ Spec.destroysAt q (t.teardown res K) = 0 := by
  intro t
  induction t with
  | absent => intro _; exact ⟨rfl, rfl⟩
  | hollow a => intro _; exact ⟨rfl, rfl⟩
  | node p a v ks ih =>
    intro h
    have hp : ¬ p = q := fun e => h (Or.inl e.symm)
    have hk : ∀ k, k < K → _ := fun k hk => ih k (fun hm => h (Or.inr ⟨k, hk, hm⟩))
    simp only [teardown, Spec.deallocsAt, Spec.destroysAt, deallocsAt_append, destroysAt_append]
    rw [count_downFrom_zero (Spec.deallocsAt q) rfl (deallocsAt_append q) (fun i hi => (hk i hi).1),
      count_downFrom_zero (Spec.destroysAt q) rfl (destroysAt_append q) (fun i hi => (hk i hi).2)]
    simp [hp]

/-- Every node of the tree is destroyed exactly once and its block is freed exactly once. -/
theorem teardown_once {q : Addr} : ∀ {t : Tree A V}, t.Sep K → t.Mem K q →
    Spec.deallocsAt q (t.teardown res K) = 1 ∧ Spec.destroysAt q (t.teardown res K) = 1 := by
  intro t
  induction t with
  | absent => intro _ h; exact h.elim
  | hollow a => intro _ h; exact h.elim
  | node p a v ks ih =>
    rintro ⟨s1, s2, s3⟩ hm
    simp only [teardown, Spec.deallocsAt, Spec.destroysAt, deallocsAt_append, destroysAt_append]
    rcases hm with rfl | ⟨k, hk, hm⟩
    · have hz : ∀ k, k < K → _ := fun k hk => teardown_other res (s1 k hk)
      rw [count_downFrom_zero (Spec.deallocsAt q) rfl (deallocsAt_append q) (fun i hi => (hz i hi).1),
        count_downFrom_zero (Spec.destroysAt q) rfl (destroysAt_append q) (fun i hi => (hz i hi).2)]
      simp
    · have hp : ¬ p = q := fun e => s1 k hk (e ▸ hm)
      have hz : ∀ i, i < K → i ≠ k → _ := fun i hi hne =>
        teardown_other res (s2 k i hk hi (fun e => hne e.symm) q hm)
      rw [count_downFrom (Spec.deallocsAt q) rfl (deallocsAt_append q) hk (fun i hi hne => (hz i hi hne).1),
        count_downFrom (Spec.destroysAt q) rfl (destroysAt_append q) hk (fun i hi hne => (hz i hi hne).2),
        (ih k (s3 k hk) hm).1, (ih k (s3 k hk) hm).2]
      simp [hp]

end

theorem Sep.at' : ∀ {r : List Nat} {t : Tree A V}, t.Has K r → t.Sep K → (t.at' r).Sep K
  | [], t, _, hs => by cases t <;> exact hs
  | _ :: _, .absent, h, _ => h.elim
  | _ :: _, .hollow _, h, _ => h.elim
  | k :: r, .node _ _ _ ks, h, hs => Sep.at' (r := r) (t := ks k) h.2 (hs.2.2 k h.1)

theorem Mem.at' : ∀ {r : List Nat} {t : Tree A V} {q : Addr}, t.Has K r → (t.at' r).Mem K q → t.Mem K q
  | [], t, _, _, hs => by cases t <;> exact hs
  | _ :: _, .absent, _, h, _ => h.elim
  | _ :: _, .hollow _, _, h, _ => h.elim
  | k :: r, .node _ _ _ ks, _, h, hs => Or.inr ⟨k, h.1, Mem.at' (r := r) (t := ks k) h.2 hs⟩

end Tree

namespace Node
open Verif
section
variable {N A R V X : Type} [DecidableEq N] [DecidableEq R] {K : Nat}
variable (tr : ATraits A R) (T : TSpec V X)

/-- Destroying a tree, exactly. -/
theorem drop_exact {W : N → Tree A V} {s : NSt N A R V} (w : World tr.res K W s) {n : Nat} {P : Path N}
    (hL : Live K W P) (hn : Fits K n W P) :
    ∃ s', exec tr T K n (.drop P : NOp N A X) s = .ok () s' ∧ World tr.res K (putAt W P .absent) s' ∧
      s'.trace = s.trace ++ (treeAt W P).teardown tr.res K ∧
      (∀ q, (treeAt W P).Mem K q → s'.heap q = none) ∧
      (∀ q, ¬ (treeAt W P).Mem K q → s'.heap q = s.heap q) := by
  obtain ⟨hf, hb⟩ := w.one hL.1
  obtain ⟨s', hd, c, ht⟩ := dtor_spec tr T (treeAt W P) n hn (loc W P) _ s rfl hL.2 hf w.clean
  have hw := hb _ _ c
  rw [upd_same] at hw
  refine ⟨s', ?_, hw, ht, ?_, ?_⟩
  · show (resolve P >>= fun l => Indirect.dtor tr (ops tr T K n) l) s = _
    rw [M.bind_ok (resolve_eq w hL.1), hd]
  · intro q hm
    refine (c.freed (loc W P) q rfl hm).resolve_left ?_
    rintro ⟨l, rfl, h⟩
    rw [upd_same] at h; exact h
  · intro q hm
    refine c.heap q (fun l _ => hm) ?_
    rintro l rfl h
    rw [upd_same] at h; exact h

end
end Node
end Verif
